import Verif.Proofs.ProcessTrail
import Verif.Props.Process

/-!
# C85: only a change of the address touches the listener

`Start` subscribes with a check that compares the addresses (pkg/server/server.go:89-92), so that of the configurations that the
distributor gets it is told of those with another address than the one before.
-/

namespace Gevulot

namespace Spec

theorem changes_append (l m : List Nat) : changes l <+: changes (l ++ m) := by
  suffices h : ∀ m : List Nat, ∀ acc : List Nat, acc <+: m.foldl (fun acc x => if acc.getLast? = some x then acc else acc ++ [x]) acc by
    unfold changes; rw [List.foldl_append]; exact h m _
  intro m
  induction m with
  | nil => intro acc; exact List.prefix_refl _
  | cons x m ih =>
    intro acc
    rw [List.foldl_cons]
    refine List.IsPrefix.trans ?_ (ih _)
    split
    · exact List.prefix_refl _
    · exact List.prefix_append _ _

theorem changes_last (l : List Nat) : (changes l).getLast? = l.getLast? := by
  rcases List.eq_nil_or_concat l with rfl | ⟨l, x, rfl⟩
  · rfl
  · rw [List.concat_eq_append, Process.changes_snoc]
    split
    · rename_i h; simp [h]
    · simp

/-- The same again is no change. -/
theorem changes_same (l m : List Nat) (h : ∀ x ∈ m, l.getLast? = some x) : changes (l ++ m) = changes l := by
  induction m generalizing l with
  | nil => simp
  | cons x m ih =>
    have hx := h x (by simp)
    have h1 : changes (l ++ [x]) = changes l := by rw [Process.changes_snoc, changes_last, hx]; simp
    have h2 := ih (l ++ [x]) (fun y hy => by
      have := h y (by simp [hy])
      rw [hx] at this
      simpa using this)
    rw [List.append_assoc, List.singleton_append] at h2
    rw [h2, h1]

end Spec

namespace Process

open ServerModel (Tid PC)

variable {parse : Bytes → Option ConnectionParams} {bytes : Nat → Bytes} {path : Option Nat} {text : Nat → CliModel.Text}

theorem told_prefix {s : State} (h : Reachable (step parse bytes) (init path text) s) : told s.dist <+: s.cli.sent.map encode := by
  have h1 := (DistributorModel.inv_of_reachable (parts_reachable h).2.1).src.produced
  rw [← (linked_of_reachable h).link.produced, h1, List.append_assoc]
  refine List.IsPrefix.trans ?_ (List.prefix_append _ _)
  unfold told
  split
  · exact List.dropLast_prefix _
  · exact List.prefix_refl _

theorem trail_changes {s : State} (h : Reachable (step parse bytes) (init path text) s) :
    trail s.sys.server <+: Spec.changes (s.cli.sent.map (·.listen)) := by
  rw [trail_of_reachable h]
  obtain ⟨m, hm⟩ := told_prefix h
  have : s.cli.sent.map (·.listen) = (told s.dist).map (fun n => (decode n).listen) ++ m.map fun n => (decode n).listen := by
    rw [← List.map_append, hm, List.map_map]
    refine List.map_congr_left fun c _ => ?_
    simp [decode_encode]
  rw [this]
  exact Spec.changes_append _ _

/-- C85: the addresses on which `Start` tries to listen are those of the configurations that were read, in this order, where
the same address again is left out: each is tried once, and an address that is not changed is not tried again. (The last ones may
not have been tried yet.) -/
theorem C85 (s : State) (h : Reachable (step parse bytes) (init path text) s) :
    s.sys.server.tried.map (·.2.1) <+: Spec.changes (s.cli.sent.map (·.listen)) := by
  refine List.IsPrefix.trans ?_ (trail_changes h)
  unfold trail
  rw [List.append_assoc]
  exact List.prefix_append _ _

/-- C85, when the program has nothing to do: all of them have been tried. -/
theorem C85_rest (s : State) (h : Reachable (step parse bytes) (init path text) s) (ho : s.over = false) (hr : AtRest parse bytes s) :
    s.sys.server.tried.map (·.2.1) = Spec.changes (s.cli.sent.map (·.listen)) := by
  have hx := rest_of_reachable h ho hr
  have h1 := trail_of_reachable h
  unfold Trail trail told at h1
  rw [hx.mon, hx.loop, hx.updates, rest_updates h hx, List.map_map] at h1
  simp only [List.append_nil] at h1
  rw [h1]
  congr 1
  refine List.map_congr_left fun c _ => ?_
  simp [decode_encode]

theorem grows_step {s s' : State} {a : Action} (h : Reachable (step parse bytes) (init path text) s) (hs : step parse bytes s a = some s') :
    s.sys.server.tried <+: s'.sys.server.tried ∧ s.cli.sent <+: s'.cli.sent := by
  have hl := linked_of_reachable h
  have hv : ∀ {b sys}, System.step parse s.sys (.server b) = some sys → s.sys.server.tried <+: sys.server.tried := by
    intro b sys hb
    have hb := sys_server hb
    generalize sys.server = v at *
    generalize s.sys.server = u at *
    server_cases hb <;> first | exact List.prefix_refl _ | exact List.prefix_append _ _
  have hp : s.sys.server.tried <+: s.sys.server.tried := List.prefix_refl _
  have hq : s.cli.sent <+: s.cli.sent := List.prefix_refl _
  cases move_of_step h hl hs with
  | cli hr hc hs' hm hh h1 => exact ⟨hp, by simp only; rw [hs']; exact hq⟩
  | send ha hc hs' h1 h2 => exact ⟨hp, by simp only; rw [hs']; exact List.prefix_append _ _⟩
  | dist ha h2 => exact ⟨hp, hq⟩
  | subscribed hpc h2 h3 => exact ⟨hv h3, hq⟩
  | take h1 h2 =>
    refine ⟨hp, ?_⟩
    simp only [CliModel.step] at h1
    split at h1
    · simp only [Option.some.injEq] at h1; subst h1; exact hq
    · simp at h1
  | notify hm h2 h3 => exact ⟨hv h3, hq⟩
  | server hb h3 => exact ⟨hv h3, hq⟩
  | takeConfig h2 h3 => exact ⟨hv h3, hq⟩
  | session hb hg hx h3 => exact ⟨by simp only; rw [hx]; exact hp, hq⟩
  | start hm hc h3 => exact ⟨hv h3, hq⟩
  | exit hm hc => exact ⟨hp, hq⟩
  | subscribe hpc h2 => exact ⟨hp, hq⟩
  | get hh hconn h2 => exact ⟨hp, hq⟩
  | gotten hpc hx h3 => exact ⟨by simp only; rw [hx]; exact hp, hq⟩

/-- C85, in particular: from a state in which the program has nothing to do, as long as the configurations that are read have the
address that is in force, whatever else they change, `Start` is not told, and opens no listener. -/
theorem C85_same (s s' : State) (h : Reachable (step parse bytes) (init path text) s) (ho : s.over = false) (hr : AtRest parse bytes s)
    (acts : List Action) (hrun : run (step parse bytes) s acts = some s')
    (hc : ∀ c ∈ s'.cli.sent.drop s.cli.sent.length, s.sys.server.current = some c.listen) :
    s'.sys.server.tried = s.sys.server.tried ∧ s'.sys.server.updates = [] := by
  have h' := h.trans ⟨acts, hrun⟩
  have hx := rest_of_reachable h ho hr
  obtain ⟨c, e1, -, e3⟩ := rest_last h hx
  obtain ⟨-, h1, h2⟩ := run_invariant (fun x => Reachable (step parse bytes) (init path text) x ∧ s.sys.server.tried <+: x.sys.server.tried ∧
      s.cli.sent <+: x.cli.sent) ⟨h, List.prefix_refl _, List.prefix_refl _⟩
    (fun x a x' hk hs => ⟨hk.1.next hs, hk.2.1.trans (grows_step hk.1 hs).1, hk.2.2.trans (grows_step hk.1 hs).2⟩) hrun
  obtain ⟨m, hm⟩ := h2
  rw [← hm, List.drop_left] at hc
  have hsame : Spec.changes (s'.cli.sent.map (·.listen)) = Spec.changes (s.cli.sent.map (·.listen)) := by
    rw [← hm, List.map_append]
    refine Spec.changes_same _ _ fun x hx => ?_
    obtain ⟨d, hd, rfl⟩ := List.mem_map.mp hx
    rw [List.getLast?_map, e1, ← hc d hd, e3]
    rfl
  have h3 := trail_changes h'
  rw [hsame, ← C85_rest s h ho hr] at h3
  have hlen := h3.length_le
  have hlen' := h1.length_le
  unfold trail at hlen
  simp only [List.length_append, List.length_map] at hlen
  exact ⟨(h1.eq_of_length (by omega)).symm, List.eq_nil_of_length_eq_zero (by omega)⟩

/-- C76, and the parts agree on what is on its way: what waits for the monitor is what was sent and not taken, and in the channel of
`Start` are the addresses of the configurations that the distributor has put there. -/
theorem C76_same (s : State) (h : Reachable (step parse bytes) (init path text) s) :
    s.dist.source = s.cli.chan.map encode ∧ s.dist.produced = s.cli.sent.map encode ∧
    ∃ buf, s.dist.chans 0 = ⟨1, buf, 0, false⟩ ∧ s.sys.server.updates = buf.map fun n => (decode n).listen :=
  have hl := (linked_of_reachable h).link
  ⟨hl.source, hl.produced, hl.chan⟩

/-! ## Examples -/

/-- C85_rest: the program has been started. -/
example : let s := after started
    Reachable (step exampleParse exampleBytes) (init (some 0) CliModel.oldText) s ∧ s.over = false ∧ AtRest exampleParse exampleBytes s ∧
    s.sys.server.tried.map (·.2.1) = [1] :=
  ⟨after_reachable _ (by decide +kernel), by decide +kernel, started_rest, by decide +kernel⟩

/-- C85_same: the URL is changed. -/
example : let s' := after (started ++ changed)
    run (step exampleParse exampleBytes) (after started) changed = some s' ∧ s'.cli.sent.drop (after started).cli.sent.length = [⟨1, 2⟩] ∧
    (after started).sys.server.current = some 1 :=
  ⟨after_append _ _ (by decide +kernel) (by decide +kernel), by decide +kernel, by decide +kernel⟩

/-- C85, C76_same: after that, the address is changed, and changed back. `Start` has been told of both. -/
def readdressed : List Action :=
  started ++ changed ++
  [.cli (.write (some ⟨some 2, some 2⟩)), .cli .event, .cli .handle, .cli .handle, .dist (.monTake 0), .dist (.monLock 0),
    .dist (.monNotify 0 (.user 0)), .dist (.monLock 0), .sys (.server (.takeConfig (.user 0))), .sys (.server (.listen (.user 0) true)),
    .sys (.server (.thread (.user 0)))] ++
  [.cli (.write (some ⟨some 1, some 2⟩)), .cli .event, .cli .handle, .cli .handle, .dist (.monTake 0), .dist (.monLock 0),
    .dist (.monNotify 0 (.user 0)), .dist (.monLock 0)]

example : let s := after readdressed
    Reachable (step exampleParse exampleBytes) (init (some 0) CliModel.oldText) s ∧ s.cli.sent = [⟨1, 1⟩, ⟨1, 2⟩, ⟨2, 2⟩, ⟨1, 2⟩] ∧
    s.sys.server.tried.map (·.2.1) = [1, 2] ∧ s.sys.server.updates = [1] :=
  ⟨after_reachable _ (by decide +kernel), by decide +kernel, by decide +kernel, by decide +kernel⟩

/-- The same address again, twice, is left out; an older one is not. -/
example : Spec.changes [1, 1, 2, 2, 2, 1] = [1, 2, 1] := rfl

end Process

end Gevulot
