import Verif.Spec.DSN

namespace Gevulot

theorem Values.add_keys (m : List (Bytes × List Bytes)) (k v : Bytes) :
    (Values.add m k v).map Prod.fst = if k ∈ m.map Prod.fst then m.map Prod.fst else m.map Prod.fst ++ [k] := by
  induction m with
  | nil => simp [Values.add]
  | cons e m ih =>
    obtain ⟨k', vs⟩ := e
    rw [Values.add]
    by_cases h : k' = k
    · simp [h]
    · rw [if_neg h, List.map_cons, ih]
      by_cases hm : k ∈ m.map Prod.fst
      · rw [if_pos hm, if_pos (by simp only [List.map_cons, List.mem_cons]; exact .inr hm)]
        simp
      · rw [if_neg hm, if_neg (by simp only [List.map_cons, List.mem_cons, not_or]; exact ⟨Ne.symm h, hm⟩)]
        simp

theorem Values.add_nodup {m : List (Bytes × List Bytes)} (h : (m.map Prod.fst).Nodup) (k v : Bytes) :
    ((Values.add m k v).map Prod.fst).Nodup := by
  rw [Values.add_keys]
  split
  · exact h
  · rename_i hk
    rw [List.nodup_append]
    exact ⟨h, by simp, by intro a ha b hb; simp at hb; subst hb; intro e; exact hk (e ▸ ha)⟩

/-- The lookup in the entries of a map. -/
def entryHead (m : List (Bytes × List Bytes)) (k : Bytes) : Option Bytes :=
  (m.find? (fun e => e.1 == k)).bind (fun e => e.2.head?)

theorem Values.add_nonempty {m : List (Bytes × List Bytes)} (h : ∀ e ∈ m, e.2 ≠ []) (k v : Bytes) :
    ∀ e ∈ Values.add m k v, e.2 ≠ [] := by
  induction m with
  | nil => intro e he; simp [Values.add] at he; subst he; simp
  | cons e m ih =>
    obtain ⟨k', vs⟩ := e
    rw [Values.add]
    intro e he
    split at he
    · rcases List.mem_cons.mp he with rfl | he
      · simp
      · exact h e (by simp [he])
    · rcases List.mem_cons.mp he with rfl | he
      · exact h _ (by simp)
      · exact ih (fun e he => h e (by simp [he])) e he

theorem Values.add_head {m : List (Bytes × List Bytes)} (h : ∀ e ∈ m, e.2 ≠ []) (k v k' : Bytes) :
    entryHead (Values.add m k v) k' = match entryHead m k' with
      | some w => some w
      | none => if k = k' then some v else none := by
  induction m with
  | nil =>
    by_cases hk : k = k'
    · simp [Values.add, entryHead, hk]
    · simp [Values.add, entryHead, hk]
  | cons e m ih =>
    obtain ⟨k1, vs⟩ := e
    have hvs : vs ≠ [] := h (k1, vs) (by simp)
    obtain ⟨w, ws, rfl⟩ := List.exists_cons_of_ne_nil hvs
    have ih := ih (fun e he => h e (by simp [he]))
    rw [Values.add]
    by_cases h1 : k1 = k'
    · subst h1
      by_cases h2 : k1 = k
      · rw [if_pos h2]; simp [entryHead]
      · rw [if_neg h2]; simp [entryHead]
    · have e1 : ∀ rest, entryHead ((k1, w :: ws) :: rest) k' = entryHead rest k' := by
        intro rest; simp [entryHead, h1]
      by_cases h2 : k1 = k
      · subst h2
        have e2 : entryHead ((k1, (w :: ws) ++ [v]) :: m) k' = entryHead m k' := by simp [entryHead, h1]
        rw [if_pos rfl, e1, e2, if_neg h1]
        cases entryHead m k' <;> rfl
      · rw [if_neg h2, e1, e1, ih]

theorem query_facts (pairs : List (Bytes × Bytes)) (m : List (Bytes × List Bytes)) (h1 : (m.map Prod.fst).Nodup)
    (h2 : ∀ e ∈ m, e.2 ≠ []) :
    let q := pairs.foldl (fun m kv => Values.add m kv.1 kv.2) m
    (q.map Prod.fst).Nodup ∧ (∀ e ∈ q, e.2 ≠ []) ∧ ∀ k, entryHead q k = match entryHead m k with
      | some w => some w
      | none => (pairs.find? (fun kv => kv.1 == k)).map Prod.snd := by
  induction pairs generalizing m with
  | nil => exact ⟨h1, h2, fun k => by simp only [List.foldl_nil]; cases entryHead m k <;> rfl⟩
  | cons kv pairs ih =>
    obtain ⟨a, b, c⟩ := ih (Values.add m kv.1 kv.2) (Values.add_nodup h1 _ _) (Values.add_nonempty h2 _ _)
    refine ⟨a, b, fun k => ?_⟩
    rw [List.foldl_cons, c, Values.add_head h2]
    cases hm : entryHead m k with
    | some w => rfl
    | none =>
      simp only
      by_cases hk : kv.1 = k
      · simp [hk]
      · simp [hk]

theorem query_nodup (u : URL) : (u.query.map Prod.fst).Nodup := (query_facts u.queryPairs [] (by simp) (by simp)).1
theorem query_nonempty (u : URL) : ∀ e ∈ u.query, e.2 ≠ [] := (query_facts u.queryPairs [] (by simp) (by simp)).2.1
theorem query_head (u : URL) (k : Bytes) : entryHead u.query k = Spec.firstQueryValue u k := by
  have := (query_facts u.queryPairs [] (by simp) (by simp)).2.2 k
  exact this

theorem entryHead_cons_ne {k k' : Bytes} {vs : List Bytes} {m : List (Bytes × List Bytes)} (h : k ≠ k') :
    entryHead ((k, vs) :: m) k' = entryHead m k' := by simp [entryHead, h]

theorem entryHead_not_mem {k : Bytes} {m : List (Bytes × List Bytes)} (h : k ∉ m.map Prod.fst) :
    entryHead m k = none := by
  unfold entryHead
  rw [List.find?_eq_none.mpr]
  · rfl
  · intro e he hk
    exact h (List.mem_map.mpr ⟨e, he, by simpa using hk⟩)

theorem applyQuery_ok (settings : ConnectionParams) (m : List (Bytes × List Bytes)) (h1 : (m.map Prod.fst).Nodup)
    (h2 : ∀ e ∈ m, e.2 ≠ []) :
    ∃ s, applyQuery settings m = .ok s ∧ ∀ k, s k = match entryHead m k with
      | some v => some v
      | none => settings k := by
  induction m generalizing settings with
  | nil => exact ⟨settings, rfl, fun k => rfl⟩
  | cons e m ih =>
    obtain ⟨k1, vs⟩ := e
    obtain ⟨v, vs, rfl⟩ := List.exists_cons_of_ne_nil (h2 (k1, vs) (by simp))
    rw [List.map_cons, List.nodup_cons] at h1
    obtain ⟨s, hs, hl⟩ := ih (settings.set k1 v) h1.2 (fun e he => h2 e (by simp [he]))
    refine ⟨s, by rw [applyQuery, hs], fun k => ?_⟩
    rw [hl]
    by_cases hk : k1 = k
    · subst hk
      rw [entryHead_not_mem h1.1]
      simp [entryHead, ConnectionParams.set]
    · rw [entryHead_cons_ne hk]
      cases entryHead m k with
      | some w => rfl
      | none => simp [ConnectionParams.set, Ne.symm hk]

theorem entryHead_perm {m m' : List (Bytes × List Bytes)} (hp : m'.Perm m) (h1 : (m.map Prod.fst).Nodup) (k : Bytes) :
    entryHead m' k = entryHead m k := by
  have key : ∀ (l : List (Bytes × List Bytes)), (l.map Prod.fst).Nodup → ∀ e ∈ l, entryHead l e.1 = e.2.head? := by
    intro l hl e he
    induction l with
    | nil => simp at he
    | cons x l ih =>
      rw [List.map_cons, List.nodup_cons] at hl
      rcases List.mem_cons.mp he with rfl | he
      · simp [entryHead]
      · have : x.1 ≠ e.1 := fun h => hl.1 (h ▸ List.mem_map_of_mem he)
        rw [show x = (x.1, x.2) from rfl, entryHead_cons_ne this, ih hl.2 he]
  have h1' : (m'.map Prod.fst).Nodup := (hp.map Prod.fst).nodup_iff.mpr h1
  by_cases hk : k ∈ m.map Prod.fst
  · obtain ⟨e, he, rfl⟩ := List.mem_map.mp hk
    rw [key m h1 e he, key m' h1' e (hp.mem_iff.mpr he)]
  · rw [entryHead_not_mem hk, entryHead_not_mem (fun h => hk ((hp.map Prod.fst).mem_iff.mp h))]

theorem databaseInPath_eq (p : Bytes) :
    p.dropWhile (fun c => c == BitVec.ofNat 8 '/'.toNat) = Spec.databaseInPath p := by
  induction p with
  | nil => rfl
  | cons c cs ih =>
    rw [Spec.databaseInPath, List.dropWhile_cons]
    split
    · rename_i h
      rw [if_pos (by simpa using h), ih]
    · rename_i h
      rw [if_neg (by simpa using h)]

theorem ascii_keys_ne : ascii "host" ≠ ascii "port" ∧ ascii "host" ≠ ascii "user" ∧ ascii "host" ≠ ascii "password" ∧
    ascii "host" ≠ ascii "database" ∧ ascii "port" ≠ ascii "user" ∧ ascii "port" ≠ ascii "password" ∧
    ascii "port" ≠ ascii "database" ∧ ascii "user" ≠ ascii "password" ∧ ascii "user" ≠ ascii "database" ∧
    ascii "password" ≠ ascii "database" := by decide

theorem uriSettings_eq (osUser : Option Bytes) (u : URL) (k : Bytes) : uriSettings osUser u k =
    if k = ascii "host" then some (if u.hostname = [] then ascii "localhost" else u.hostname)
    else if k = ascii "port" then some (if u.port = [] then ascii "5432" else u.port)
    else if k = ascii "user" then Spec.uriUser u osUser
    else if k = ascii "password" then u.user.bind UserInfo.password
    else if k = ascii "database" then
      some (if Spec.databaseInPath u.path = [] then (Spec.uriUser u osUser).getD [] else Spec.databaseInPath u.path)
    else none := by
  obtain ⟨n1, n2, n3, n4, n5, n6, n7, n8, n9, n10⟩ := ascii_keys_ne
  unfold uriSettings defaultConnectionSettings Spec.uriUser
  simp only [databaseInPath_eq]
  generalize Spec.databaseInPath u.path = db
  generalize ascii "host" = H at *
  generalize ascii "port" = P at *
  generalize ascii "user" = U at *
  generalize ascii "password" = W at *
  generalize ascii "database" = D at *
  obtain ⟨sch, usr, hn, pt, path, q⟩ := u
  by_cases hh : hn = [] <;> by_cases hp : pt = [] <;> by_cases hd : db = [] <;>
    rcases usr with _ | ⟨un, _ | pw⟩ <;> cases osUser <;>
    simp only [hh, hp, hd, ne_eq, not_true_eq_false, not_false_eq_true, if_true, if_false, ConnectionParams.set,
      ConnectionParams.get, Option.bind_none, Option.bind_some] <;>
    grind

end Gevulot
