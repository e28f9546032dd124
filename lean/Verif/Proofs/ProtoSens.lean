import Verif.Proofs.Proto

/-! # Lemmas about protobuf messages of scalar fields -/

namespace Egts

namespace Proto

/-! ## Kinds -/

theorem unzigzag_spec (n : Nat) (x : Int) (h : ((n % 2 ^ 32 : Nat) : Int) = (if 0 ≤ x then 2 * x else -2 * x - 1)) : unzigzag n = UInt32.ofInt x := by
  have hlt : n % 2 ^ 32 < 2 ^ 32 := Nat.mod_lt _ (by norm_num)
  unfold unzigzag
  simp only
  generalize n % 2 ^ 32 = v at h hlt ⊢
  apply UInt32.toNat.inj
  rw [show (UInt32.ofInt x).toNat = (x % 2 ^ 32).toNat from by simp [UInt32.ofInt]; omega]
  split at h
  · rw [if_pos (by omega)]
    simp
    omega
  · rw [if_neg (by omega)]
    simp
    omega

theorem unzigzag_exists (n : Nat) : ∃ x : Int, ((n % 2 ^ 32 : Nat) : Int) = (if 0 ≤ x then 2 * x else -2 * x - 1) := by
  generalize n % 2 ^ 32 = v
  by_cases h : v % 2 = 0
  · exact ⟨v / 2, by rw [if_pos (by omega)]; omega⟩
  · exact ⟨-((v + 1) / 2 : Nat), by rw [if_neg (by omega)]; omega⟩

theorem read_complete {k : Kind} {p : Bytes} {v : Val} (h : k.Means p v) (r : Bytes) : k.read (p ++ r) = some (v, r) := by
  cases k with
  | uint32 =>
    obtain ⟨n, hp, rfl⟩ := h
    simp [Kind.read, readVarint_append hp]
  | sint32 =>
    obtain ⟨n, x, hp, hx, rfl⟩ := h
    simp [Kind.read, readVarint_append hp, unzigzag_spec n x hx]
  | bool =>
    obtain ⟨n, hp, rfl⟩ := h
    simp [Kind.read, readVarint_append hp]
  | fixed32 =>
    obtain ⟨a, b, c, d, rfl, rfl⟩ := h
    rw [Kind.read, (read32_iff _ _ _).mpr ⟨a, b, c, d, rfl, rfl⟩]
    rfl
  | bytes =>
    obtain ⟨hh, d, rfl, hd, rfl⟩ := h
    rw [Kind.read, (readBytes_iff _ _ _).mpr ⟨hh, rfl, hd⟩]
    rfl

theorem means_unique {k : Kind} {p : Bytes} {v w : Val} (h : k.Means p v) (h' : k.Means p w) : v = w := by
  have h1 := read_complete h []
  rw [read_complete h' []] at h1
  cases h1
  rfl

theorem means_of_value {k : Kind} {num : Nat} {p : Bytes} (h : IsValue num k.wire p) : ∃ v, k.Means p v := by
  cases k with
  | uint32 => cases h with | varint h => exact ⟨_, _, h, rfl⟩
  | sint32 =>
    cases h with
    | @varint _ n _ h =>
      obtain ⟨x, hx⟩ := unzigzag_exists n
      exact ⟨_, n, x, h, hx, rfl⟩
  | bool => cases h with | varint h => exact ⟨_, _, h, rfl⟩
  | fixed32 =>
    cases h with
    | fixed32 h =>
      match p, h with
      | [a, b, c, d], _ => exact ⟨_, a, b, c, d, rfl, rfl⟩
  | bytes => cases h with | bytes h => exact ⟨_, _, _, rfl, h, rfl⟩

theorem value_of_means {k : Kind} {p : Bytes} {v : Val} (h : k.Means p v) (num : Nat) : IsValue num k.wire p := by
  cases k with
  | uint32 => obtain ⟨n, hp, rfl⟩ := h; exact .varint hp
  | sint32 => obtain ⟨n, x, hp, hx, rfl⟩ := h; exact .varint hp
  | bool => obtain ⟨n, hp, rfl⟩ := h; exact .varint hp
  | fixed32 => obtain ⟨a, b, c, d, rfl, rfl⟩ := h; exact .fixed32 rfl
  | bytes => obtain ⟨hh, d, rfl, hd, rfl⟩ := h; exact .bytes hd

theorem read_sound {k : Kind} {b : Bytes} {v : Val} {r : Bytes} (h : k.read b = some (v, r)) : ∃ p, b = p ++ r ∧ k.Means p v := by
  cases k with
  | uint32 =>
    rw [Kind.read, Option.map_eq_some_iff] at h
    obtain ⟨⟨n, r'⟩, h, e⟩ := h
    cases e
    obtain ⟨p, rfl, hp⟩ := (readVarint_iff _ _ _).mp h
    exact ⟨p, rfl, n, hp, rfl⟩
  | sint32 =>
    rw [Kind.read, Option.map_eq_some_iff] at h
    obtain ⟨⟨n, r'⟩, h, e⟩ := h
    cases e
    obtain ⟨p, rfl, hp⟩ := (readVarint_iff _ _ _).mp h
    obtain ⟨x, hx⟩ := unzigzag_exists n
    exact ⟨p, rfl, n, x, hp, hx, by rw [unzigzag_spec n x hx]⟩
  | bool =>
    rw [Kind.read, Option.map_eq_some_iff] at h
    obtain ⟨⟨n, r'⟩, h, e⟩ := h
    cases e
    obtain ⟨p, rfl, hp⟩ := (readVarint_iff _ _ _).mp h
    exact ⟨p, rfl, n, hp, rfl⟩
  | fixed32 =>
    rw [Kind.read, Option.map_eq_some_iff] at h
    obtain ⟨⟨n, r'⟩, h, e⟩ := h
    cases e
    obtain ⟨a, b, c, d, rfl, rfl⟩ := (read32_iff _ _ _).mp h
    exact ⟨_, rfl, a, b, c, d, rfl, rfl⟩
  | bytes =>
    rw [Kind.read, Option.map_eq_some_iff] at h
    obtain ⟨⟨d, r'⟩, h, e⟩ := h
    cases e
    obtain ⟨hh, rfl, hd⟩ := (readBytes_iff _ _ _).mp h
    exact ⟨_, rfl, hh, d, rfl, hd, rfl⟩

/-! ## Fields -/

/-- The effect of a whole known field, for any reader of fields. -/
def effOf {M : Type} (field : Nat → Nat → Bytes → M → Step M) (num wt : Nat) (p : Bytes) (m : M) : Option M :=
  match field num wt p m with
  | .ok m [] => some m
  | _ => none

/-- The field of this number and wire type is in the description. -/
def Schema.has (sch : Schema) (num wt : Nat) : Bool := sch.any fun f => decide (f.num = num ∧ f.kind.wire = wt)

theorem knows_eq (sch : Schema) (f : WField) : sch.knows f = sch.has f.num f.wt := by
  unfold Schema.knows Schema.has WField.is
  congr 1
  funext x
  simp [eq_comm]

theorem findIdx?_some {sch : Schema} {num wt : Nat} (h : sch.has num wt = true) :
    ∃ i f, sch.findIdx? (fun f => f.num = num ∧ f.kind.wire = wt) = some i ∧ sch[i]? = some f ∧ f.num = num ∧ f.kind.wire = wt := by
  induction sch with
  | nil => cases h
  | cons x sch ih =>
    by_cases hx : x.num = num ∧ x.kind.wire = wt
    · exact ⟨0, x, by simp [List.findIdx?_cons, hx], rfl, hx⟩
    · have : Schema.has sch num wt = true := by
        simpa [Schema.has, List.any_cons, hx] using h
      obtain ⟨i, f, h1, h2, h3⟩ := ih this
      refine ⟨i + 1, f, ?_, h2, h3⟩
      simp only [List.findIdx?_cons, decide_eq_true_eq]
      simp only [hx, if_false, h1]
      rfl

theorem findIdx?_none {sch : Schema} {num wt : Nat} (h : sch.has num wt = false) :
    sch.findIdx? (fun f => f.num = num ∧ f.kind.wire = wt) = none := by
  rw [List.findIdx?_eq_none_iff]
  intro x hx
  unfold Schema.has at h
  rw [List.any_eq_false] at h
  simpa using h x hx

theorem sens_unknown (sch : Schema) (num wt : Nat) (b : Bytes) (m : Sens) (h : sch.has num wt = false) : Sens.field sch num wt b m = .unknown := by
  simp only [Sens.field, findIdx?_none h]

theorem sens_field {sch : Schema} {num wt : Nat} (h : sch.has num wt = true) :
    ∃ i f, sch[i]? = some f ∧ f.num = num ∧ f.kind.wire = wt ∧ ∀ b m, Sens.field sch num wt b m =
      match f.kind.read b with
      | some (v, r) => .ok { m with vals := m.vals.set i (some v) } r
      | none => .bad := by
  obtain ⟨i, f, h1, h2, h3, h4⟩ := findIdx?_some h
  refine ⟨i, f, h2, h3, h4, fun b m => ?_⟩
  simp only [Sens.field, h1, h2]
  cases f.kind.read b <;> rfl

theorem sens_known {sch : Schema} {num wt : Nat} (b : Bytes) (m : Sens) (h : sch.has num wt = true) : Sens.field sch num wt b m ≠ .unknown := by
  obtain ⟨i, f, _, _, _, hf⟩ := sens_field h
  rw [hf]
  split <;> (intro h; cases h)

theorem sens_sound {sch : Schema} {num wt : Nat} {b r : Bytes} {m m2 : Sens} (h : sch.has num wt = true) (ho : Sens.field sch num wt b m = .ok m2 r) :
    ∃ p, b = p ++ r ∧ IsValue num wt p ∧ effOf (Sens.field sch) num wt p m = some m2 := by
  obtain ⟨i, f, h1, rfl, rfl, hf⟩ := sens_field h
  rw [hf] at ho
  split at ho
  · rename_i v r' hr
    cases ho
    obtain ⟨p, rfl, hm⟩ := read_sound hr
    refine ⟨p, rfl, value_of_means hm _, ?_⟩
    have := read_complete hm []
    rw [List.append_nil] at this
    simp only [effOf, hf, this]
  · cases ho

theorem sens_complete {sch : Schema} {num wt : Nat} {p r : Bytes} {m m2 : Sens} (h : sch.has num wt = true) (hv : IsValue num wt p)
    (he : effOf (Sens.field sch) num wt p m = some m2) : Sens.field sch num wt (p ++ r) m = .ok m2 r := by
  obtain ⟨i, f, h1, rfl, rfl, hf⟩ := sens_field h
  obtain ⟨v, hm⟩ := means_of_value hv
  have h0 := read_complete hm []
  rw [List.append_nil] at h0
  simp only [effOf, hf, h0] at he
  cases he
  simp only [hf, read_complete hm]

/-! ## What a sequence of fields means -/

theorem lastWith_snoc (fs : List WField) (f : WField) (num wt : Nat) :
    lastWith (fs ++ [f]) num wt = if WField.is num wt f then some f.payload else lastWith fs num wt := by
  unfold lastWith
  rw [List.filter_append]
  by_cases h : WField.is num wt f = true
  · simp [h]
  · simp [h]

/-- The effect of several fields on a message. -/
def Sens.run (sch : Schema) (fs : List WField) : Option Sens :=
  runF (Schema.has sch) (effOf (Sens.field sch)) (fun u m => { m with unknown := m.unknown ++ u }) fs (Sens.empty sch)

theorem sens_denoted (sch : Schema) (hnd : (sch.map fun f => f.num).Nodup) (fs : List WField) (hfs : ∀ f ∈ fs, f.Ok) :
    ∃ s, Sens.run sch fs = some s ∧ s.Denoted sch fs := by
  induction fs using List.reverseRecOn with
  | nil =>
    refine ⟨_, rfl, by simp [Sens.empty], ?_, rfl⟩
    intro i f v hi hv
    simp only [Sens.empty, List.getElem?_map, hi, Option.map_some, Option.some.injEq] at hv
    subst hv
    rfl
  | append_singleton fs f ih =>
    obtain ⟨s, hs, hd⟩ := ih fun g hg => hfs g (by simp [hg])
    have hf := hfs f (by simp)
    unfold Sens.run at hs ⊢
    rw [runF_append, hs]
    simp only [Option.bind_some, runF, stepF]
    cases hk : Schema.has sch f.num f.wt with
    | false =>
      simp only [Bool.false_eq_true, if_false]
      refine ⟨_, rfl, hd.length, ?_, ?_⟩
      · intro i g v hi hv
        rw [lastWith_snoc, if_neg]
        · exact hd.vals i g v hi hv
        · intro hc
          unfold Schema.has at hk
          rw [List.any_eq_false] at hk
          have := hk g (List.mem_of_getElem? hi)
          simp only [WField.is, decide_eq_true_eq] at hc this
          exact this ⟨hc.1.symm, hc.2.symm⟩
      · simp only [List.filter_append, List.flatMap_append, hd.unknown]
        simp [knows_eq, hk]
    | true =>
      obtain ⟨i, g, h1, hn, hw, hfield⟩ := sens_field hk
      obtain ⟨v, hm⟩ := means_of_value (k := g.kind) (by rw [hw]; exact hf.2.2.2.2)
      have h0 := read_complete hm []
      rw [List.append_nil] at h0
      simp only [if_true, effOf, hfield, h0]
      refine ⟨_, rfl, by simpa using hd.length, ?_, ?_⟩
      · intro j g' v' hj hv'
        simp only at hv'
        rw [lastWith_snoc]
        by_cases hji : j = i
        · subst hji
          rw [h1] at hj
          cases hj
          rw [if_pos (by simp [WField.is, hn, hw])]
          have hlt : j < s.vals.length := by
            rw [hd.length]; exact (List.getElem?_eq_some_iff.mp h1).1
          rw [List.getElem?_set_self hlt] at hv'
          cases hv'
          exact ⟨v, rfl, hm⟩
        · rw [List.getElem?_set_ne (Ne.symm hji)] at hv'
          rw [if_neg]
          · exact hd.vals j g' v' hj hv'
          · intro hc
            simp only [WField.is, decide_eq_true_eq] at hc
            have e1 : (sch.map fun f => f.num)[j]? = some f.num := by simp [List.getElem?_map, hj, hc.1]
            have e2 : (sch.map fun f => f.num)[i]? = some f.num := by simp [List.getElem?_map, h1, hn]
            have hlt : j < (sch.map fun f => f.num).length := (List.getElem?_eq_some_iff.mp e1).1
            exact hji ((List.getElem?_inj hlt hnd).mp (e1.trans e2.symm))
      · simp only [List.filter_append, List.flatMap_append, hd.unknown]
        simp [knows_eq, hk]

theorem isLast_unique {k : Kind} {o : Option Bytes} {v w : Option Val} (h : k.IsLast o v) (h' : k.IsLast o w) : v = w := by
  cases o with
  | none =>
    have h : v = none := h
    have h' : w = none := h'
    rw [h, h']
  | some p =>
    obtain ⟨x, rfl, hx⟩ := h
    obtain ⟨y, rfl, hy⟩ := h'
    rw [means_unique hx hy]

theorem denoted_unique {sch : Schema} {fs : List WField} {s t : Sens} (h : s.Denoted sch fs) (h' : t.Denoted sch fs) : s = t := by
  obtain ⟨sv, su⟩ := s
  obtain ⟨tv, tu⟩ := t
  have hu : su = tu := h.unknown.trans h'.unknown.symm
  have hl : sv.length = tv.length := h.length.trans h'.length.symm
  have hv : sv = tv := by
    apply List.ext_getElem hl
    intro i h1 h2
    have h3 : i < sch.length := by rw [← h.length]; exact h1
    exact isLast_unique (h.vals i sch[i] _ (List.getElem?_eq_getElem h3) (List.getElem?_eq_getElem h1))
      (h'.vals i sch[i] _ (List.getElem?_eq_getElem h3) (List.getElem?_eq_getElem h2))
  rw [hu, hv]

theorem unmarshal_iff (sch : Schema) (hnd : (sch.map fun f => f.num).Nodup) (b : Bytes) (s : Sens) :
    Sens.unmarshal sch b = some s ↔ IsMessage sch b s := by
  unfold Sens.unmarshal
  constructor
  · intro h
    obtain ⟨fs, hfs, rfl, hr⟩ := parse_sound (known := Schema.has sch) (eff := effOf (Sens.field sch))
      (sens_unknown sch) (fun _ _ _ _ _ _ => sens_sound) (fun _ _ b m => sens_known b m) _ _ _ _ h
    obtain ⟨s', h1, h2⟩ := sens_denoted sch hnd fs hfs
    unfold Sens.run at h1
    rw [h1] at hr
    cases hr
    exact ⟨fs, hfs, rfl, h2⟩
  · rintro ⟨fs, hfs, rfl, hd⟩
    obtain ⟨s', h1, h2⟩ := sens_denoted sch hnd fs hfs
    obtain rfl := denoted_unique hd h2
    exact parse_complete (sens_unknown sch) (fun _ _ _ _ _ _ => sens_complete) fs hfs _ _ _ (Nat.le_refl _) h1

end Proto

end Egts
