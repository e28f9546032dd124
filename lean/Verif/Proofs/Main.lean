import Verif.Spec.Main
import Mathlib.Tactic.Linarith
import Mathlib.Tactic.NormNum
import Mathlib.Algebra.Order.Ring.Rat

/-! # Reading the configuration -/

namespace Egts

theorem lastOf_nil (key : Bytes) : lastOf [] key = none := rfl

theorem lastOf_cons (x : Bytes × Yaml) (ms : List (Bytes × Yaml)) (key : Bytes) :
    lastOf (x :: ms) key = (lastOf ms key).or (if x.1 = key then some x.2 else none) := by
  unfold lastOf
  by_cases h : x.1 = key
  · rw [List.filter_cons_of_pos (by simpa using h), if_pos h, List.getLast?_cons]
    cases (ms.filter (fun x => decide (x.1 = key))).getLast? <;> simp
  · rw [List.filter_cons_of_neg (by simpa using h), if_neg h, Option.or_none]

theorem isText_iff (v : Yaml) (x : Bytes) : v.IsText x ↔ v.toStr = some x := by
  unfold Yaml.IsText
  cases v <;> simp [Yaml.toStr, eq_comm]

theorem isNumber_iff (v : Yaml) (n : Int) : v.IsNumber n ↔ v.toInt = some n := by
  unfold Yaml.IsNumber
  cases v with
  | null t => simp [Yaml.toInt, Yaml.IsNothing, eq_comm]
  | int m t =>
    simp only [Yaml.toInt, Yaml.IsNothing, Yaml.int.injEq, reduceCtorEq, exists_false, false_and, or_false]
    split
    · simp only [Option.some.injEq]
      constructor
      · rintro ⟨_, ⟨h, _⟩, _⟩; exact h
      · rintro rfl; exact ⟨t, ⟨rfl, rfl⟩, by omega⟩
    · simp only [reduceCtorEq, iff_false]
      rintro ⟨_, ⟨rfl, _⟩, h⟩
      omega
  | float q t =>
    have hz : ∀ (q : Rat) (m : Int), (m : Rat) ≤ q ∧ q < m + 1 ↔ q.floor = m := by
      intro q m
      have h1 : m ≤ q.floor ↔ (m : Rat) ≤ q := Rat.le_floor_iff
      have h2 : m + 1 ≤ q.floor ↔ ((m + 1 : Int) : Rat) ≤ q := Rat.le_floor_iff
      rw [Int.cast_add, Int.cast_one] at h2
      rw [← h1, ← not_le, ← h2]
      omega
    have hn : ∀ m : Int, q ≤ (m : Rat) ∧ (m : Rat) < q + 1 ↔ -(-q).floor = m := by
      intro m
      have h := hz (-q) (-m)
      rw [Int.cast_neg, neg_le_neg_iff] at h
      constructor
      · rintro ⟨h1, h2⟩
        have := h.mp ⟨h1, by linarith⟩
        omega
      · intro hm
        obtain ⟨h1, h2⟩ := h.mpr (by omega)
        exact ⟨h1, by linarith⟩
    have e2 : (2 ^ 63 : Rat) = 9223372036854775808 := by norm_num
    simp only [Yaml.toInt, Yaml.IsNothing, Yaml.float.injEq, reduceCtorEq, exists_false, false_and, false_or, or_false, e2]
    split
    · rename_i hr
      simp only [Option.some.injEq]
      constructor
      · rintro ⟨_, _, ⟨rfl, rfl⟩, _, _, ⟨h0, h1⟩ | ⟨h0, h1⟩⟩
        · rw [if_neg (not_lt.mpr h0)]; exact (hz _ _).mp h1
        · rw [if_pos h0]; exact (hn _).mp h1
      · intro h
        refine ⟨q, t, ⟨rfl, rfl⟩, hr.1, hr.2, ?_⟩
        by_cases h0 : q < 0
        · rw [if_pos h0] at h; exact .inr ⟨h0, (hn _).mpr h⟩
        · rw [if_neg h0] at h; exact .inl ⟨not_lt.mp h0, (hz _ _).mpr h⟩
    · rename_i hr
      simp only [reduceCtorEq, iff_false]
      rintro ⟨_, _, ⟨rfl, rfl⟩, h1, h2, _⟩
      exact hr ⟨h1, h2⟩
  | str s => simp [Yaml.toInt, Yaml.IsNothing]
  | other s => simp [Yaml.toInt, Yaml.IsNothing]
  | seq => simp [Yaml.toInt, Yaml.IsNothing]
  | map ms => simp [Yaml.toInt, Yaml.IsNothing]

theorem lookup_assign (m : List (Bytes × Bytes)) (key k : Bytes) (v : Bytes) :
    lookup (assign m key v) k = if k = key then some v else lookup m k := by
  unfold lookup assign
  rw [List.find?_append]
  by_cases h : k = key
  · subst h
    rw [if_pos rfl]
    have : (m.filter (fun x => decide (x.1 ≠ k))).find? (fun x => decide (x.1 = k)) = none := by
      rw [List.find?_eq_none]
      intro x hx
      simpa using (List.mem_filter.mp hx).2
    rw [this]
    simp
  · rw [if_neg h]
    have h1 : List.find? (fun x => decide (x.1 = k)) [(key, v)] = none := by simp [Ne.symm h]
    rw [h1, Option.or_none]
    congr 1
    induction m with
    | nil => rfl
    | cons x m ih =>
      by_cases hx : x.1 = key
      · rw [List.filter_cons_of_neg (by simpa using hx), List.find?_cons_of_neg (by simpa using fun h' => h (h'.symm.trans hx))]
        exact ih
      · rw [List.filter_cons_of_pos (by simpa using hx)]
        by_cases hk : x.1 = k
        · rw [List.find?_cons_of_pos (by simpa using hk), List.find?_cons_of_pos (by simpa using hk)]
        · rw [List.find?_cons_of_neg (by simpa using hk), List.find?_cons_of_neg (by simpa using hk)]
          exact ih

theorem toParams_spec (ps : List (Bytes × Yaml)) (m q : List (Bytes × Bytes)) (h : Yaml.toParams ps m = some q) (key : Bytes) :
    (lastOf ps key = none → lookup q key = lookup m key) ∧ ∀ u, lastOf ps key = some u → ∃ x, lookup q key = some x ∧ u.IsText x := by
  induction ps generalizing m with
  | nil =>
    cases h
    exact ⟨fun _ => rfl, fun u hu => by rw [lastOf_nil] at hu; cases hu⟩
  | cons x ps ih =>
    obtain ⟨k, v⟩ := x
    unfold Yaml.toParams at h
    split at h
    · rename_i s hs
      obtain ⟨h1, h2⟩ := ih _ h
      rw [lastOf_cons]
      constructor
      · intro hn
        rw [Option.or_eq_none_iff] at hn
        rw [h1 hn.1, lookup_assign]
        have : ¬ key = k := fun hk => by simp [hk] at hn
        rw [if_neg this]
      · intro u hu
        cases hl : lastOf ps key with
        | some u' =>
          rw [hl] at hu
          cases hu
          exact h2 _ hl
        | none =>
          rw [hl, Option.none_or] at hu
          by_cases hk : k = key
          · rw [if_pos hk] at hu
            cases hu
            refine ⟨s, ?_, (isText_iff _ _).mpr hs⟩
            rw [h1 hl, lookup_assign, if_pos hk.symm]
          · rw [if_neg hk] at hu; cases hu
    · cases h

theorem mem_assign {α : Type} (m : List (Bytes × α)) (key : Bytes) (v : α) (x : Bytes × α) :
    x ∈ assign m key v ↔ (x ∈ m ∧ x.1 ≠ key) ∨ x = (key, v) := by
  simp [assign]

theorem assign_nodup {α : Type} (m : List (Bytes × α)) (key : Bytes) (v : α) (h : (m.map (·.1)).Nodup) : ((assign m key v).map (·.1)).Nodup := by
  unfold assign
  rw [List.map_append, List.nodup_append]
  refine ⟨h.sublist (List.Sublist.map _ List.filter_sublist), by simp, ?_⟩
  intro a ha b hb
  obtain ⟨x, hx, rfl⟩ := List.mem_map.mp ha
  simp only [List.map_cons, List.map_nil, List.mem_singleton] at hb
  subst hb
  simpa using (List.mem_filter.mp hx).2

theorem toStore_spec (ss : List (Bytes × Yaml)) (m st : List (Bytes × Params)) (h : Yaml.toStore ss m = some st) :
    ((m.map (·.1)).Nodup → (st.map (·.1)).Nodup) ∧
    ∀ name, (lastOf ss name = none → ∀ p, (name, p) ∈ st ↔ (name, p) ∈ m) ∧
      ∀ u, lastOf ss name = some u → ∃ p, (∀ p', (name, p') ∈ st ↔ p' = p) ∧ u.IsParams p := by
  induction ss generalizing m with
  | nil =>
    cases h
    exact ⟨id, fun name => ⟨fun _ _ => Iff.rfl, fun u hu => by rw [lastOf_nil] at hu; cases hu⟩⟩
  | cons x ss ih =>
    obtain ⟨k, v⟩ := x
    have key : ∃ p, v.IsParams p ∧ Yaml.toStore ss (assign m k p) = some st := by
      unfold Yaml.toStore at h
      split at h
      · rename_i heq; cases heq
      · rename_i heq
        cases heq
        exact ⟨none, .inl ⟨⟨_, rfl⟩, rfl⟩, h⟩
      · rename_i heq
        cases heq
        split at h
        · rename_i q hq
          refine ⟨some q, .inr ⟨_, q, rfl, rfl, fun key => ?_⟩, h⟩
          have := toParams_spec _ [] q hq key
          exact ⟨fun hn => by rw [this.1 hn]; rfl, this.2⟩
        · cases h
      · cases h
    obtain ⟨p, hp, hst⟩ := key
    obtain ⟨h1, h2⟩ := ih _ hst
    refine ⟨fun hm => h1 (assign_nodup m k p hm), fun name => ?_⟩
    obtain ⟨h3, h4⟩ := h2 name
    rw [lastOf_cons]
    constructor
    · intro hn p'
      rw [Option.or_eq_none_iff] at hn
      have hk : ¬ k = name := fun hk => by simp [hk] at hn
      rw [h3 hn.1, mem_assign]
      simp only [ne_eq, Prod.mk.injEq]
      constructor
      · rintro (⟨h, _⟩ | ⟨h, _⟩)
        · exact h
        · exact absurd h.symm hk
      · exact fun h => .inl ⟨h, fun h => hk h.symm⟩
    · intro u hu
      cases hl : lastOf ss name with
      | some u' =>
        rw [hl] at hu
        cases hu
        exact h4 _ hl
      | none =>
        rw [hl, Option.none_or] at hu
        by_cases hk : k = name
        · rw [if_pos hk] at hu
          cases hu
          subst hk
          refine ⟨p, fun p' => ?_, hp⟩
          rw [h3 hl, mem_assign]
          simp
        · rw [if_neg hk] at hu; cases hu

theorem read_spec (ms : List (Bytes × Yaml)) (s0 s : Settings) (h : Settings.read ms s0 = some s) :
    ((lastOf ms (go!"host") = none → s.host = s0.host) ∧ ∀ v, lastOf ms (go!"host") = some v → v.IsText s.host) ∧
    ((lastOf ms (go!"port") = none → s.port = s0.port) ∧ ∀ v, lastOf ms (go!"port") = some v → v.IsText s.port) ∧
    ((lastOf ms (go!"log_level") = none → s.logLevel = s0.logLevel) ∧ ∀ v, lastOf ms (go!"log_level") = some v → v.IsText s.logLevel) ∧
    ((lastOf ms (go!"conn_ttl") = none → s.connTTL = s0.connTTL) ∧ ∀ v, lastOf ms (go!"conn_ttl") = some v → v.IsNumber s.connTTL) ∧
    (lastOf ms (go!"storage") = none → s.store = s0.store) := by
  induction ms generalizing s0 with
  | nil =>
    cases h
    simp [lastOf_nil]
  | cons x ms ih =>
    obtain ⟨k, v⟩ := x
    simp only [lastOf_cons]
    have pass : ∀ {P : Yaml → Prop} {a b : Prop} (o : Option Yaml), ((o = none → a) ∧ ∀ v, o = some v → P v) → (a → b) →
        (o.or none = none → b) ∧ ∀ v, o.or none = some v → P v := by
      intro P a b o h hab
      rw [Option.or_none]
      exact ⟨fun hn => hab (h.1 hn), h.2⟩
    have hit : ∀ {P : Yaml → Prop} {a b : Prop} (o : Option Yaml) (v : Yaml), ((o = none → a) ∧ ∀ v, o = some v → P v) → (a → P v) →
        (o.or (some v) = none → b) ∧ ∀ u, o.or (some v) = some u → P u := by
      intro P a b o v h hab
      cases o with
      | none => exact ⟨fun hn => by simp at hn, fun u hu => by simp at hu; subst hu; exact hab (h.1 rfl)⟩
      | some o => exact ⟨fun hn => by simp at hn, fun u hu => by simp at hu; subst hu; exact h.2 _ rfl⟩
    unfold Settings.read at h
    split at h
    · rename_i hk
      subst hk
      split at h
      · rename_i x hx
        obtain ⟨h1, h2, h3, h4, h5⟩ := ih _ h
        simp only [show ¬ (go!"host") = go!"port" by decide, show ¬ (go!"host") = go!"log_level" by decide,
          show ¬ (go!"host") = go!"conn_ttl" by decide, show ¬ (go!"host") = go!"storage" by decide, if_true, if_false]
        refine ⟨hit _ v h1 ?_, pass _ h2 id, pass _ h3 id, pass _ h4 id, ?_⟩
        · intro he; rw [isText_iff, he, hx]
        · rw [Option.or_none]; exact h5
      · cases h
    · split at h
      · rename_i hk
        subst hk
        split at h
        · rename_i x hx
          obtain ⟨h1, h2, h3, h4, h5⟩ := ih _ h
          simp only [show ¬ (go!"port") = go!"host" by decide, show ¬ (go!"port") = go!"log_level" by decide,
            show ¬ (go!"port") = go!"conn_ttl" by decide, show ¬ (go!"port") = go!"storage" by decide, if_true, if_false]
          refine ⟨pass _ h1 id, hit _ v h2 ?_, pass _ h3 id, pass _ h4 id, ?_⟩
          · intro he; rw [isText_iff, he, hx]
          · rw [Option.or_none]; exact h5
        · cases h
      · split at h
        · rename_i hk
          subst hk
          split at h
          · rename_i x hx
            obtain ⟨h1, h2, h3, h4, h5⟩ := ih _ h
            simp only [show ¬ (go!"conn_ttl") = go!"host" by decide, show ¬ (go!"conn_ttl") = go!"log_level" by decide,
              show ¬ (go!"conn_ttl") = go!"port" by decide, show ¬ (go!"conn_ttl") = go!"storage" by decide, if_true, if_false]
            refine ⟨pass _ h1 id, pass _ h2 id, pass _ h3 id, hit _ v h4 ?_, ?_⟩
            · intro he; rw [isNumber_iff, he, hx]
            · rw [Option.or_none]; exact h5
          · cases h
        · split at h
          · rename_i hk
            subst hk
            split at h
            · rename_i x hx
              obtain ⟨h1, h2, h3, h4, h5⟩ := ih _ h
              simp only [show ¬ (go!"log_level") = go!"host" by decide, show ¬ (go!"log_level") = go!"conn_ttl" by decide,
                show ¬ (go!"log_level") = go!"port" by decide, show ¬ (go!"log_level") = go!"storage" by decide, if_true, if_false]
              refine ⟨pass _ h1 id, pass _ h2 id, hit _ v h3 ?_, pass _ h4 id, ?_⟩
              · intro he; rw [isText_iff, he, hx]
              · rw [Option.or_none]; exact h5
            · cases h
          · split at h
            · rename_i hk
              subst hk
              have fin : ∀ st, Settings.read ms { s0 with store := st } = some s → _ := fun st hs => ih _ hs
              have hh : ∃ st, Settings.read ms { s0 with store := st } = some s := by
                split at h
                · exact ⟨_, h⟩
                · split at h
                  · exact ⟨_, h⟩
                  · cases h
                · cases h
              obtain ⟨st, hs⟩ := hh
              obtain ⟨h1, h2, h3, h4, _⟩ := ih _ hs
              simp only [show ¬ (go!"storage") = go!"host" by decide, show ¬ (go!"storage") = go!"conn_ttl" by decide,
                show ¬ (go!"storage") = go!"port" by decide, show ¬ (go!"storage") = go!"log_level" by decide, if_true, if_false]
              refine ⟨pass _ h1 id, pass _ h2 id, pass _ h3 id, pass _ h4 id, ?_⟩
              simp
            · rename_i n1 n2 n3 n4 n5
              obtain ⟨h1, h2, h3, h4, h5⟩ := ih _ h
              simp only [if_neg n1, if_neg n2, if_neg n3, if_neg n4, if_neg n5]
              refine ⟨pass _ h1 id, pass _ h2 id, pass _ h3 id, pass _ h4 id, ?_⟩
              rw [Option.or_none]; exact h5

/-- The storages, if the key occurs once. -/
theorem read_store (ms : List (Bytes × Yaml)) (s0 s : Settings) (h : Settings.read ms s0 = some s) (h0 : s0.store = [])
    (h1 : (ms.filter (fun x => x.1 = go!"storage")).length ≤ 1) :
    (lastOf ms (go!"storage") = none ∨ ∃ v, v.IsNothing ∧ lastOf ms (go!"storage") = some v) ∧ s.store = [] ∨
      ∃ ss, lastOf ms (go!"storage") = some (.map ss) ∧ Yaml.toStore ss [] = some s.store := by
  induction ms generalizing s0 with
  | nil => cases h; exact .inl ⟨.inl rfl, h0⟩
  | cons x ms ih =>
    obtain ⟨k, v⟩ := x
    rw [lastOf_cons]
    by_cases hk : k = go!"storage"
    · subst hk
      rw [List.filter_cons_of_pos (by simp), List.length_cons] at h1
      have hf : ms.filter (fun x => x.1 = go!"storage") = [] := List.length_eq_zero_iff.mp (by omega)
      have hl : lastOf ms (go!"storage") = none := by rw [lastOf, hf]; rfl
      rw [hl, if_pos rfl, Option.none_or]
      unfold Settings.read at h
      simp only [show ¬ (go!"storage") = go!"host" by decide, show ¬ (go!"storage") = go!"conn_ttl" by decide,
        show ¬ (go!"storage") = go!"port" by decide, show ¬ (go!"storage") = go!"log_level" by decide, if_true, if_false] at h
      split at h
      · have := (read_spec ms _ s h).2.2.2.2 hl
        exact .inl ⟨.inr ⟨_, ⟨_, rfl⟩, rfl⟩, this⟩
      · rename_i ss
        split at h
        · rename_i st hst
          have := (read_spec ms _ s h).2.2.2.2 hl
          refine .inr ⟨ss, rfl, ?_⟩
          rw [this, ← hst, h0]
        · cases h
      · cases h
    · rw [List.filter_cons_of_neg (by simpa using hk)] at h1
      rw [if_neg hk, Option.or_none]
      have hh : ∃ s1 : Settings, s1.store = [] ∧ Settings.read ms s1 = some s := by
        unfold Settings.read at h
        split at h
        · split at h
          · refine ⟨_, ?_, h⟩; exact h0
          · cases h
        · split at h
          · split at h
            · refine ⟨_, ?_, h⟩; exact h0
            · cases h
          · split at h
            · split at h
              · refine ⟨_, ?_, h⟩; exact h0
              · cases h
            · split at h
              · split at h
                · refine ⟨_, ?_, h⟩; exact h0
                · cases h
              · exact ⟨_, h0, h⟩
      obtain ⟨s1, hs0, hs1⟩ := hh
      exact ih s1 hs1 hs0 h1

theorem toParams_isSome (ps : List (Bytes × Yaml)) (m : List (Bytes × Bytes)) : (Yaml.toParams ps m).isSome ↔ ∀ p ∈ ps, ∃ x, p.2.IsText x := by
  induction ps generalizing m with
  | nil => simp [Yaml.toParams]
  | cons x ps ih =>
    obtain ⟨k, v⟩ := x
    rw [List.forall_mem_cons]
    simp only [isText_iff] at ih ⊢
    unfold Yaml.toParams
    cases v.toStr with
    | none => simp
    | some t => simp [ih]

theorem toStore_isSome (ss : List (Bytes × Yaml)) (m : List (Bytes × Params)) :
    (Yaml.toStore ss m).isSome ↔ ∀ s ∈ ss, s.2.IsNothing ∨ ∃ ps, s.2 = .map ps ∧ ∀ p ∈ ps, ∃ x, p.2.IsText x := by
  induction ss generalizing m with
  | nil => simp [Yaml.toStore]
  | cons x ss ih =>
    obtain ⟨k, v⟩ := x
    rw [List.forall_mem_cons]
    cases v with
    | null => simp [Yaml.toStore, Yaml.IsNothing, ih]
    | int n t => simp [Yaml.toStore, Yaml.IsNothing]
    | float q t => simp [Yaml.toStore, Yaml.IsNothing]
    | str t => simp [Yaml.toStore, Yaml.IsNothing]
    | other t => simp [Yaml.toStore, Yaml.IsNothing]
    | seq => simp [Yaml.toStore, Yaml.IsNothing]
    | map ps =>
      have h := toParams_isSome ps []
      unfold Yaml.toStore
      cases hp : Yaml.toParams ps [] with
      | none =>
        rw [hp] at h
        simp only [Option.isSome_none, Bool.false_eq_true, false_iff] at h ⊢
        rintro ⟨⟨_, h1⟩ | ⟨ps', h1, h2⟩, _⟩
        · cases h1
        · cases h1; exact h h2
      | some q =>
        rw [hp] at h
        simp only [Option.isSome_some, true_iff] at h
        simp only [ih]
        exact ⟨fun h' => ⟨.inr ⟨ps, rfl, h⟩, h'⟩, fun h' => h'.2⟩

theorem read_isSome_iff (ms : List (Bytes × Yaml)) (s0 : Settings) : (Settings.read ms s0).isSome ↔ ∀ x ∈ ms, WellTyped x.1 x.2 := by
  induction ms generalizing s0 with
  | nil => simp [Settings.read]
  | cons x ms ih =>
    obtain ⟨k, v⟩ := x
    rw [List.forall_mem_cons]
    have str : ∀ (f : Bytes → Settings), (WellTyped k v ↔ ∃ x, v.IsText x) →
        ((match v.toStr with
          | some x => Settings.read ms (f x)
          | none => none).isSome ↔ WellTyped k v ∧ ∀ x ∈ ms, WellTyped x.1 x.2) := by
      intro f hw
      rw [hw]
      simp only [isText_iff]
      cases v.toStr with
      | none => simp
      | some t => simp [ih]
    unfold Settings.read
    split
    · rename_i hk
      subst hk
      exact str _ (by simp [WellTyped])
    · split
      · rename_i hk
        subst hk
        exact str _ (by simp [WellTyped])
      · split
        · rename_i hk
          subst hk
          have hw : WellTyped (go!"conn_ttl") v ↔ ∃ n, v.IsNumber n := by simp [WellTyped]
          rw [hw]
          simp only [isNumber_iff]
          cases v.toInt with
          | none => simp
          | some t => simp [ih]
        · split
          · rename_i hk
            subst hk
            exact str _ (by simp [WellTyped])
          · split
            · rename_i hk
              subst hk
              have hw : WellTyped (go!"storage") v ↔ v.IsNothing ∨ ∃ ss, v = .map ss ∧
                  ∀ s ∈ ss, s.2.IsNothing ∨ ∃ ps, s.2 = .map ps ∧ ∀ p ∈ ps, ∃ x, p.2.IsText x := by simp [WellTyped]
              rw [hw]
              cases v with
              | null => simp [Yaml.IsNothing, ih]
              | int n t => simp [Yaml.IsNothing]
              | float q t => simp [Yaml.IsNothing]
              | str t => simp [Yaml.IsNothing]
              | other t => simp [Yaml.IsNothing]
              | seq => simp [Yaml.IsNothing]
              | map ss =>
                have h := toStore_isSome ss s0.store
                cases hp : Yaml.toStore ss s0.store with
                | none =>
                  rw [hp] at h
                  simp only [hp]
                  simp only [Option.isSome_none, Bool.false_eq_true, false_iff] at h ⊢
                  rintro ⟨⟨_, h1⟩ | ⟨ss', h1, h2⟩, _⟩
                  · cases h1
                  · cases h1; exact h h2
                | some q =>
                  rw [hp] at h
                  simp only [hp]
                  simp only [Option.isSome_some, true_iff] at h
                  simp only [ih]
                  exact ⟨fun h' => ⟨.inr ⟨ss, rfl, h⟩, h'⟩, fun h' => h'.2⟩
            · rename_i n1 n2 n3 n4 n5
              have hw : WellTyped k v := by simp [WellTyped, n1, n2, n3, n4, n5]
              simp [hw, ih]

end Egts
