/-!
# Go values as Lean values

Shared vocabulary of the model: bytes, results of fallible Go functions, run-time panics.
-/

namespace Gevulot

/-- Go `byte` (`uint8`). -/
abbrev Byte := BitVec 8

/-- Go `[]byte` and Go `string` (a Go string is an arbitrary byte sequence; slices are modelled by value,
which is sound here because no code in /repo writes through a slice it has handed out). -/
abbrev Bytes := List Byte

/-- A Go string literal (ASCII only). -/
def ascii (s : String) : Bytes := s.toList.map fun c => BitVec.ofNat 8 c.toNat

/-- The error values of the modelled code. -/
inductive Err where
  /-- `io.EOF` -/
  | eof
  /-- `pg.ErrMalformedMessage`, pkg/pg/message.go:13-16 -/
  | malformed
  /-- the `fmt.Errorf` of pkg/pg/read_buffer.go:90 -/
  | noTerminator
  /-- `pg.ErrunsupportedAuthenticationRequest`, pkg/pg/authentication_request_message.go:47-51 -/
  | unsupportedAuth
  /-- an error of a network connection other than `io.EOF` (reset, timeout, use of closed connection, ...);
  the number distinguishes them -/
  | io (code : Nat)
  /-- an error of a callee outside /repo's logic (`url.Parse`, the configuration store, `net.Dial`, ...) -/
  | ext (code : Nat)
  /-- the `fmt.Errorf` of pkg/pg/dsn.go:24 -/
  | notPostgresURI
  /-- the `fmt.Errorf` of pkg/server/session.go:177 -/
  | unsupportedProtocol
  /-- the `fmt.Errorf` of pkg/server/session.go:188 -/
  | databaseMismatch
  deriving DecidableEq, Repr

/-- Run-time panics of the modelled code. -/
inductive Panic where
  /-- slice bounds out of range -/
  | sliceBounds
  /-- index out of range -/
  | index
  /-- `makeslice: len out of range` -/
  | makeLen
  /-- not a Go panic: an unbounded Go `for {}` loop is modelled with a bound on the number of iterations and this
  outcome would mean the bound was too small; it is proved unreachable wherever it is used -/
  | outOfFuel
  deriving DecidableEq, Repr

/-- Outcome of a Go function returning `(T, error)`: a value, a non-nil error, or a run-time panic. -/
inductive Res (α : Type) where
  | ok (a : α)
  | err (e : Err)
  | panic (p : Panic)
  deriving DecidableEq, Repr

namespace Res

/-- `v, err := f(); if err != nil { return nil, err }` -/
def bind {α β : Type} (x : Res α) (f : α → Res β) : Res β :=
  match x with
  | .ok a => f a
  | .err e => .err e
  | .panic p => .panic p

instance : Monad Res where
  pure := Res.ok
  bind := Res.bind

@[simp] theorem pure_eq {α : Type} (a : α) : (pure a : Res α) = .ok a := rfl
@[simp] theorem bind_ok {α β : Type} (a : α) (f : α → Res β) : (Res.ok a >>= f) = f a := rfl
@[simp] theorem bind_err {α β : Type} (e : Err) (f : α → Res β) : ((Res.err e : Res α) >>= f) = .err e := rfl
@[simp] theorem bind_panic {α β : Type} (p : Panic) (f : α → Res β) :
    ((Res.panic p : Res α) >>= f) = .panic p := rfl

end Res

/-- Two's-complement wrap-around of Go's 64-bit `int`. -/
def wrap64 (n : Int) : Int := (BitVec.ofInt 64 n).toInt

/-- Largest allocation Go's `make` accepts on 64-bit platforms (runtime `maxAlloc` = 2^48). -/
def maxAlloc : Int := 281474976710656

/-- `make([]T, n)` where `T` takes `elemSize` bytes: the Go runtime panics if `n` is negative or the slice would be
larger than `maxAlloc`; otherwise the result is a slice of `n` zero values. (Running out of memory is not modelled.) -/
def goMake (elemSize : Int) (n : Int) : Res Nat :=
  if n < 0 ∨ maxAlloc < n * elemSize then .panic .makeLen else .ok n.toNat

end Gevulot
