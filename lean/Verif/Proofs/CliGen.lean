import Verif.Proofs.Cli
import Verif.Proofs.CliNum

/-! # Lemmas about the options of packet-gen and the receiver -/

namespace Egts

theorem lastValue_cons (n v : Bytes) (os : List (Bytes × Bytes)) (name : Bytes) :
    lastValue ((n, v) :: os) name = match lastValue os name with
      | some w => some w
      | none => if n = name then some v else none := by
  unfold lastValue
  by_cases h : n = name
  · rw [List.filter_cons_of_pos (by simpa using h)]
    cases hf : os.filter (fun x => x.1 = name) with
    | nil => simp [h]
    | cons x xs => rw [List.getLast?_cons_cons]; cases hl : (x :: xs).getLast? <;> simp_all
  · rw [List.filter_cons_of_neg (by simpa using h)]
    cases (os.filter (fun x => x.1 = name)).getLast? <;> simp [h]

section

variable {S : Type} {formal : Bytes → Option (Bytes → S → Option S)}

/-- What becomes of one setting: it is read from the last value given for it. -/
theorem setAll_last {β : Type} (g : S → β) (name : Bytes) (rd : Bytes → Option β)
    (hg : ∀ n set v s s', formal n = some set → set v s = some s' → if n = name then rd v = some (g s') else g s' = g s) :
    ∀ (opts : List (Bytes × Bytes)) (s s' : S), setAll formal opts s = some s' →
      lastValue opts name = none ∧ g s' = g s ∨ ∃ v, lastValue opts name = some v ∧ rd v = some (g s')
  | [], s, s', h => by cases h; exact .inl ⟨rfl, rfl⟩
  | (n, v) :: os, s, s', h => by
    simp only [setAll, Option.bind_eq_some_iff] at h
    obtain ⟨set, h1, s1, h2, h3⟩ := h
    rw [lastValue_cons]
    rcases setAll_last g name rd hg os s1 s' h3 with ⟨e1, e2⟩ | ⟨w, e1, e2⟩
    · have := hg n set v s s1 h1 h2
      rw [e1]
      by_cases hn : n = name
      · rw [if_pos hn] at this
        exact .inr ⟨v, by simp [hn], by rw [e2]; exact this⟩
      · rw [if_neg hn] at this
        exact .inl ⟨by simp [hn], by rw [e2, this]⟩
    · rw [e1]
      exact .inr ⟨w, rfl, e2⟩

theorem setAll_isSome (valid : Bytes → Bytes → Prop) (hv : ∀ n v (s : S), valid n v ↔ ∃ set, formal n = some set ∧ (set v s).isSome) :
    ∀ (opts : List (Bytes × Bytes)) (s : S), (∃ s', setAll formal opts s = some s') ↔ ∀ x ∈ opts, valid x.1 x.2
  | [], s => by simp [setAll]
  | (n, v) :: os, s => by
    simp only [List.mem_cons, forall_eq_or_imp]
    constructor
    · rintro ⟨s', h⟩
      simp only [setAll, Option.bind_eq_some_iff] at h
      obtain ⟨set, h1, s1, h2, h3⟩ := h
      exact ⟨(hv n v s).mpr ⟨set, h1, by rw [h2]; rfl⟩, (setAll_isSome valid hv os s1).mp ⟨s', h3⟩⟩
    · rintro ⟨h, hr⟩
      obtain ⟨set, h1, h2⟩ := (hv n v s).mp h
      obtain ⟨s1, h2⟩ := Option.isSome_iff_exists.mp h2
      obtain ⟨s', h3⟩ := (setAll_isSome valid hv os s1).mpr hr
      exact ⟨s', by simp [setAll, h1, h2, h3]⟩

end

/-! ## packet-gen -/

theorem genFormal_valid (pf : Bytes → Option F64) (n v : Bytes) (o : GenOpts) :
    GenValid pf n v ↔ ∃ set, genFormal pf n = some set ∧ (set v o).isSome := by
  have hi : (∃ n, GoInt v n) ↔ (parseInt0 v).isSome := by
    rw [Option.isSome_iff_exists]
    exact exists_congr fun n => (parseInt0_iff v n).symm
  unfold GenValid genFormal
  rw [hi]
  by_cases h1 : n = go!"pid"
  · subst h1; simp
  by_cases h2 : n = go!"oid"
  · subst h2; simp
  by_cases h3 : n = go!"time"
  · subst h3; simp
  by_cases h4 : n = go!"liquid"
  · subst h4; simp
  by_cases h5 : n = go!"lat"
  · subst h5; simp
  by_cases h6 : n = go!"lon"
  · subst h6; simp
  by_cases h7 : n = go!"timeout"
  · subst h7; simp
  by_cases h8 : n = go!"server"
  · subst h8; simp
  · simp [h1, h2, h3, h4, h5, h6, h7, h8]

theorem genFormal_cases {pf : Bytes → Option F64} {n : Bytes} {set : Bytes → GenOpts → Option GenOpts} {v : Bytes} {o o' : GenOpts}
    (hf : genFormal pf n = some set) (hs : set v o = some o') :
    (n = go!"pid" ∧ ∃ x, parseInt0 v = some x ∧ o' = { o with args := { o.args with pid := x } }) ∨
    (n = go!"oid" ∧ ∃ x, parseInt0 v = some x ∧ o' = { o with args := { o.args with oid := x } }) ∨
    (n = go!"time" ∧ o' = { o with args := { o.args with ts := v } }) ∨
    (n = go!"liquid" ∧ ∃ x, parseInt0 v = some x ∧ o' = { o with args := { o.args with liqLvl := x } }) ∨
    (n = go!"lat" ∧ ∃ x, pf v = some x ∧ o' = { o with args := { o.args with lat := x } }) ∨
    (n = go!"lon" ∧ ∃ x, pf v = some x ∧ o' = { o with args := { o.args with lon := x } }) ∨
    (n = go!"timeout" ∧ ∃ x, parseInt0 v = some x ∧ o' = { o with args := { o.args with ackTimeout := x } }) ∨
    (n = go!"server" ∧ o' = { o with server := v }) := by
  unfold genFormal at hf
  repeat' split at hf
  all_goals (cases hf <;> simp only [Option.map_eq_some_iff, Option.some.injEq] at hs)
  · obtain ⟨x, h1, h2⟩ := hs; exact .inl ⟨‹_›, x, h1, h2.symm⟩
  · obtain ⟨x, h1, h2⟩ := hs; exact .inr (.inl ⟨‹_›, x, h1, h2.symm⟩)
  · exact .inr (.inr (.inl ⟨‹_›, hs.symm⟩))
  · obtain ⟨x, h1, h2⟩ := hs; exact .inr (.inr (.inr (.inl ⟨‹_›, x, h1, h2.symm⟩)))
  · obtain ⟨x, h1, h2⟩ := hs; exact .inr (.inr (.inr (.inr (.inl ⟨‹_›, x, h1, h2.symm⟩))))
  · obtain ⟨x, h1, h2⟩ := hs; exact .inr (.inr (.inr (.inr (.inr (.inl ⟨‹_›, x, h1, h2.symm⟩)))))
  · obtain ⟨x, h1, h2⟩ := hs; exact .inr (.inr (.inr (.inr (.inr (.inr (.inl ⟨‹_›, x, h1, h2.symm⟩))))))
  · exact .inr (.inr (.inr (.inr (.inr (.inr (.inr ⟨‹_›, hs.symm⟩))))))

theorem genAsks_of_setAll {pf : Bytes → Option F64} {opts : List (Bytes × Bytes)} {o : GenOpts} (h : setAll (genFormal pf) opts {} = some o) :
    GenAsks pf opts o.args o.server := by
  have int : ∀ (g : GenOpts → Int) (name : Bytes), g {} = 0 →
      (∀ n set v s s', genFormal pf n = some set → set v s = some s' → if n = name then parseInt0 v = some (g s') else g s' = g s) →
      IntGiven opts name (g o) := by
    intro g name h0 hg
    rcases setAll_last g name parseInt0 hg opts {} o h with ⟨e1, e2⟩ | ⟨v, e1, e2⟩
    · exact .inl ⟨e1, by rw [e2, h0]⟩
    · exact .inr ⟨v, e1, (parseInt0_iff v _).mp e2⟩
  have flt : ∀ (g : GenOpts → F64) (name : Bytes), g {} = 0 →
      (∀ n set v s s', genFormal pf n = some set → set v s = some s' → if n = name then pf v = some (g s') else g s' = g s) →
      FloatGiven pf opts name (g o) := by
    intro g name h0 hg
    rcases setAll_last g name pf hg opts {} o h with ⟨e1, e2⟩ | ⟨v, e1, e2⟩
    · exact .inl ⟨e1, by rw [e2, h0]⟩
    · exact .inr ⟨v, e1, e2⟩
  have txt : ∀ (g : GenOpts → Bytes) (name : Bytes),
      (∀ n set v s s', genFormal pf n = some set → set v s = some s' → if n = name then (some v : Option Bytes) = some (g s') else g s' = g s) →
      g o = (lastValue opts name).getD (g {}) := by
    intro g name hg
    rcases setAll_last g name some hg opts {} o h with ⟨e1, e2⟩ | ⟨v, e1, e2⟩
    · rw [e1, e2]; rfl
    · rw [e1]; exact (Option.some.inj e2).symm
  constructor
  · refine int (fun o => o.args.pid) _ rfl fun n set v s s' hf hs => ?_
    rcases genFormal_cases hf hs with ⟨rfl, x, e1, rfl⟩ | ⟨rfl, x, e1, rfl⟩ | ⟨rfl, rfl⟩ | ⟨rfl, x, e1, rfl⟩ | ⟨rfl, x, e1, rfl⟩ | ⟨rfl, x, e1, rfl⟩ |
      ⟨rfl, x, e1, rfl⟩ | ⟨rfl, rfl⟩ <;>
      first | exact e1 | (rw [if_neg (by decide)])
  · refine int (fun o => o.args.oid) _ rfl fun n set v s s' hf hs => ?_
    rcases genFormal_cases hf hs with ⟨rfl, x, e1, rfl⟩ | ⟨rfl, x, e1, rfl⟩ | ⟨rfl, rfl⟩ | ⟨rfl, x, e1, rfl⟩ | ⟨rfl, x, e1, rfl⟩ | ⟨rfl, x, e1, rfl⟩ |
      ⟨rfl, x, e1, rfl⟩ | ⟨rfl, rfl⟩ <;>
      first | exact e1 | (rw [if_neg (by decide)])
  · refine int (fun o => o.args.liqLvl) _ rfl fun n set v s s' hf hs => ?_
    rcases genFormal_cases hf hs with ⟨rfl, x, e1, rfl⟩ | ⟨rfl, x, e1, rfl⟩ | ⟨rfl, rfl⟩ | ⟨rfl, x, e1, rfl⟩ | ⟨rfl, x, e1, rfl⟩ | ⟨rfl, x, e1, rfl⟩ |
      ⟨rfl, x, e1, rfl⟩ | ⟨rfl, rfl⟩ <;>
      first | exact e1 | (rw [if_neg (by decide)])
  · refine int (fun o => o.args.ackTimeout) _ rfl fun n set v s s' hf hs => ?_
    rcases genFormal_cases hf hs with ⟨rfl, x, e1, rfl⟩ | ⟨rfl, x, e1, rfl⟩ | ⟨rfl, rfl⟩ | ⟨rfl, x, e1, rfl⟩ | ⟨rfl, x, e1, rfl⟩ | ⟨rfl, x, e1, rfl⟩ |
      ⟨rfl, x, e1, rfl⟩ | ⟨rfl, rfl⟩ <;>
      first | exact e1 | (rw [if_neg (by decide)])
  · refine flt (fun o => o.args.lat) _ rfl fun n set v s s' hf hs => ?_
    rcases genFormal_cases hf hs with ⟨rfl, x, e1, rfl⟩ | ⟨rfl, x, e1, rfl⟩ | ⟨rfl, rfl⟩ | ⟨rfl, x, e1, rfl⟩ | ⟨rfl, x, e1, rfl⟩ | ⟨rfl, x, e1, rfl⟩ |
      ⟨rfl, x, e1, rfl⟩ | ⟨rfl, rfl⟩ <;>
      first | exact e1 | (rw [if_neg (by decide)])
  · refine flt (fun o => o.args.lon) _ rfl fun n set v s s' hf hs => ?_
    rcases genFormal_cases hf hs with ⟨rfl, x, e1, rfl⟩ | ⟨rfl, x, e1, rfl⟩ | ⟨rfl, rfl⟩ | ⟨rfl, x, e1, rfl⟩ | ⟨rfl, x, e1, rfl⟩ | ⟨rfl, x, e1, rfl⟩ |
      ⟨rfl, x, e1, rfl⟩ | ⟨rfl, rfl⟩ <;>
      first | exact e1 | (rw [if_neg (by decide)])
  · refine txt (fun o => o.args.ts) _ fun n set v s s' hf hs => ?_
    rcases genFormal_cases hf hs with ⟨rfl, x, e1, rfl⟩ | ⟨rfl, x, e1, rfl⟩ | ⟨rfl, rfl⟩ | ⟨rfl, x, e1, rfl⟩ | ⟨rfl, x, e1, rfl⟩ | ⟨rfl, x, e1, rfl⟩ |
      ⟨rfl, x, e1, rfl⟩ | ⟨rfl, rfl⟩ <;>
      first | exact e1 | (rw [if_neg (by decide)]) | rfl
  · refine txt (fun o => o.server) _ fun n set v s s' hf hs => ?_
    rcases genFormal_cases hf hs with ⟨rfl, x, e1, rfl⟩ | ⟨rfl, x, e1, rfl⟩ | ⟨rfl, rfl⟩ | ⟨rfl, x, e1, rfl⟩ | ⟨rfl, x, e1, rfl⟩ | ⟨rfl, x, e1, rfl⟩ |
      ⟨rfl, x, e1, rfl⟩ | ⟨rfl, rfl⟩ <;>
      first | exact e1 | (rw [if_neg (by decide)]) | rfl

theorem IntGiven.unique {opts : List (Bytes × Bytes)} {name : Bytes} {n m : Int} (h : IntGiven opts name n) (h' : IntGiven opts name m) : n = m := by
  rcases h with ⟨e1, e2⟩ | ⟨v, e1, e2⟩ <;> rcases h' with ⟨f1, f2⟩ | ⟨w, f1, f2⟩
  · rw [e2, f2]
  · rw [e1] at f1; cases f1
  · rw [e1] at f1; cases f1
  · rw [e1] at f1; cases f1
    have h1 := (parseInt0_iff v n).mpr e2
    have h2 := (parseInt0_iff v m).mpr f2
    rw [h1] at h2
    exact Option.some.inj h2

theorem FloatGiven.unique {pf : Bytes → Option F64} {opts : List (Bytes × Bytes)} {name : Bytes} {n m : F64} (h : FloatGiven pf opts name n)
    (h' : FloatGiven pf opts name m) : n = m := by
  rcases h with ⟨e1, e2⟩ | ⟨v, e1, e2⟩ <;> rcases h' with ⟨f1, f2⟩ | ⟨w, f1, f2⟩
  · rw [e2, f2]
  · rw [e1] at f1; cases f1
  · rw [e1] at f1; cases f1
  · rw [e1] at f1; cases f1
    rw [e2] at f2
    exact Option.some.inj f2

theorem GenAsks.unique {pf : Bytes → Option F64} {opts : List (Bytes × Bytes)} {a b : GenArgs} {s t : Bytes} (h : GenAsks pf opts a s)
    (h' : GenAsks pf opts b t) : a = b ∧ s = t := by
  obtain ⟨p1, p2, p3, p4, p5, p6, p7, p8⟩ := h
  obtain ⟨q1, q2, q3, q4, q5, q6, q7, q8⟩ := h'
  refine ⟨?_, by rw [p8, q8]⟩
  cases a
  cases b
  simp only [GenArgs.mk.injEq]
  exact ⟨p1.unique q1, p2.unique q2, by simp_all, p3.unique q3, p5.unique q5, p6.unique q6, p4.unique q4⟩

/-! ## receiver -/

theorem receiverFormal_valid (n v : Bytes) (s : Bytes) : n = go!"c" ↔ ∃ set, receiverFormal n = some set ∧ (set v s).isSome := by
  unfold receiverFormal
  by_cases h : n = go!"c" <;> simp [h]

theorem receiver_setAll {opts : List (Bytes × Bytes)} {p : Bytes} (h : setAll receiverFormal opts [] = some p) :
    p = (lastValue opts (go!"c")).getD [] := by
  rcases setAll_last (formal := receiverFormal) id (go!"c") some (by
    intro n set v s s' hf hs
    unfold receiverFormal at hf
    split at hf
    · cases hf; cases hs; rw [if_pos ‹_›]; rfl
    · cases hf) opts [] p h with ⟨e1, e2⟩ | ⟨v, e1, e2⟩
  · rw [e1]; exact e2
  · rw [e1]; exact (Option.some.inj e2).symm

end Egts
