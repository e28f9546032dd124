import Verif.Proofs.Passed
import Verif.Proofs.PassedRun
import Verif.Props.Reencode

/-! # C113: packages passed on from relay to relay -/

namespace Egts
open Pass

/-! ## The numbers -/

/-- A latitude's number that is passed on `n` times arrives as itself or as one that is less by `n` at most; it never grows. -/
theorem C113_latitude (env : Env) (n : Nat) (v : UInt32) :
    (latOnward env)^[n] v ≤ v ∧ v.toNat ≤ ((latOnward env)^[n] v).toNat + n ∧ (latOnward env)^[n + 1] v ≤ (latOnward env)^[n] v :=
  onward_bounds _ (C33_latitude_drift env) n v

theorem C113_longitude (env : Env) (n : Nat) (v : UInt32) :
    (lonOnward env)^[n] v ≤ v ∧ v.toNat ≤ ((lonOnward env)^[n] v).toNat + n ∧ (lonOnward env)^[n + 1] v ≤ (lonOnward env)^[n] v :=
  onward_bounds _ (C33_longitude_drift env) n v

/-- It goes down by one with each relay until the first that leaves it as it is; from there on it does not change any more. -/
theorem C113_stops (env : Env) (v : UInt32) :
    (∃ n, n ≤ v.toNat ∧ (∀ k, k ≤ n → ((latOnward env)^[k] v).toNat + k = v.toNat) ∧ ∀ k, (latOnward env)^[n + k] v = (latOnward env)^[n] v) ∧
    ∃ n, n ≤ v.toNat ∧ (∀ k, k ≤ n → ((lonOnward env)^[k] v).toNat + k = v.toNat) ∧ ∀ k, (lonOnward env)^[n + k] v = (lonOnward env)^[n] v := by
  have main : ∀ f : UInt32 → UInt32, (∀ v, f v = v ∨ (v ≠ 0 ∧ f v = v - 1)) →
      ∃ n, n ≤ v.toNat ∧ (∀ k, k ≤ n → (f^[k] v).toNat + k = v.toNat) ∧ ∀ k, f^[n + k] v = f^[n] v := by
    intro f hf
    have hex : ∃ n, f^[n + 1] v = f^[n] v := ⟨v.toNat, onward_settles f hf _ v (Nat.le_refl _)⟩
    classical
    refine ⟨Nat.find hex, Nat.find_min' hex (onward_settles f hf _ v (Nat.le_refl _)), ?_, fun k => onward_stops f _ k v (Nat.find_spec hex)⟩
    intro k hk
    cases k with
    | zero => rfl
    | succ k =>
      have := onward_moves f hf k v (Nat.find_min hex (by omega))
      omega
  exact ⟨main _ (C33_latitude_drift env), main _ (C33_longitude_drift env)⟩

/-- The bound of `C113_latitude` is reached: for `n` up to 1433, this number arrives `n` units lower after `n` relays. Then it has arrived. -/
theorem C113_run (env : Env) (n : Nat) (hn : n ≤ 1433) :
    (latOnward env)^[n] 3054279064 = UInt32.ofNat (3054279064 - n) ∧ (lonOnward env)^[n] 3054279064 = UInt32.ofNat (3054279064 - n) := by
  have main : ∀ f : UInt32 → UInt32, (∀ i : Fin 1433, f (UInt32.ofNat (3054279064 - i.val)) = UInt32.ofNat (3054279064 - i.val - 1)) →
      f^[n] 3054279064 = UInt32.ofNat (3054279064 - n) := by
    intro f hf
    induction n with
    | zero => rfl
    | succ n ih =>
      rw [onward_succ f, ih (by omega), hf ⟨n, by omega⟩]
      rfl
  have cast : ∀ i : Fin 1433, ((3054279064 - i.val : Nat) : ℚ) = ((3054279064 - i.val - 1 : Nat) : ℚ) + 1 := by
    intro i
    have hi := i.isLt
    have : 3054279064 - i.val = (3054279064 - i.val - 1) + 1 := by omega
    rw [this]
    push_cast
    rfl
  constructor
  · refine main _ fun i => ?_
    obtain ⟨h1, h2⟩ := lat_run i
    exact toU32_eq env _ _ h1 (by rw [← cast i]; exact h2) (by omega)
  · refine main _ fun i => ?_
    obtain ⟨h1, h2⟩ := lon_run i
    exact toU32_eq env _ _ h1 (by rw [← cast i]; exact h2) (by omega)

/-! ## The packages -/

/-- A package that the library can carry can be passed on any number of times. What arrives is the package, except that the
coordinates are those of the numbers passed on. -/
theorem C113_passed (env : Env) (p : Package) (hc : p.Carried env) (n : Nat) :
    (∃ q, Passed env none (n + 1) p q) ∧ ∀ q, Passed env none (n + 1) p q → p.Moved env n q := by
  obtain ⟨q, h1, h2⟩ := passed_moved hc n
  refine ⟨⟨q, h1⟩, fun q' h' => ?_⟩
  rw [passed_unique h' h1]
  exact h2

theorem moved_near {env : Env} {n : Nat} {a b : SrPosData} (hw : (SubData.pos a).WF env) (h : (SubData.pos a).Moved env n (.pos b)) :
    |b.latitude - a.latitude| ≤ (n + 1) * 22 / 1000000000 ∧ |b.longitude - a.longitude| ≤ (n + 1) * 44 / 1000000000 := by
  obtain ⟨_, ⟨l1, l2⟩, ⟨l3, l4⟩⟩ := hw
  cases (h : b = _)
  show |decLat ((latOnward env)^[n] (encLat env a.latitude)) - a.latitude| ≤ _ ∧ |decLon ((lonOnward env)^[n] (encLon env a.longitude)) - a.longitude| ≤ _
  constructor
  · have acc := lat_acc env a.latitude l1 l2
    cases n with
    | zero => simpa using acc
    | succ n =>
      obtain ⟨b1, b2, _⟩ := C113_latitude env (n + 1) (encLat env a.latitude)
      generalize (latOnward env)^[n + 1] (encLat env a.latitude) = w at *
      generalize encLat env a.latitude = u at *
      have r1 := (decLat_range w).2.2
      have r2 := (decLat_range u).2.2
      have c1 : (w.toNat : ℚ) ≤ u.toNat := by exact_mod_cast (UInt32.le_iff_toNat_le.mp b1)
      have c2 : (u.toNat : ℚ) ≤ w.toNat + (n + 1) := by exact_mod_cast b2
      have c3 : (0 : ℚ) ≤ n := by positivity
      rw [abs_le] at *
      push_cast
      constructor <;> linarith [acc.1, acc.2, r1.1, r1.2, r2.1, r2.2]
  · have acc := lon_acc env a.longitude l3 l4
    cases n with
    | zero => simpa using acc
    | succ n =>
      obtain ⟨b1, b2, _⟩ := C113_longitude env (n + 1) (encLon env a.longitude)
      generalize (lonOnward env)^[n + 1] (encLon env a.longitude) = w at *
      generalize encLon env a.longitude = u at *
      have r1 := (decLon_range w).2.2
      have r2 := (decLon_range u).2.2
      have c1 : (w.toNat : ℚ) ≤ u.toNat := by exact_mod_cast (UInt32.le_iff_toNat_le.mp b1)
      have c2 : (u.toNat : ℚ) ≤ w.toNat + (n + 1) := by exact_mod_cast b2
      have c3 : (0 : ℚ) ≤ n := by positivity
      rw [abs_le] at *
      push_cast
      constructor <;> linarith [acc.1, acc.2, r1.1, r1.2, r2.1, r2.2]

/-- The same said of the positions: as many arrive as were sent, in the same order, each within 22 (44) nanodegrees per
transmission of where it was. -/
theorem C113_drift (env : Env) (p q : Package) (hc : p.Carried env) (n : Nat) (h : Passed env none n p q) :
    List.Forall₂ (fun a b : SrPosData => |b.latitude - a.latitude| ≤ n * 22 / 1000000000 ∧ |b.longitude - a.longitude| ≤ n * 44 / 1000000000 ∧
      b.navigationTime = a.navigationTime ∧ b.speed = a.speed ∧ b.direction = a.direction) p.positions q.positions := by
  cases n with
  | zero =>
    cases h
    refine List.forall₂_same.mpr fun a _ => ?_
    simp
  | succ n =>
    obtain ⟨d, d', _, h1, h2, h3, _⟩ := (C113_passed env p hc n).2 q h
    obtain ⟨⟨_, d0, _, g1, _, g3, _⟩, _⟩ := hc
    rw [h1] at g1; cases g1
    have hr : List.Forall₂ (ServiceDataRecord.Rel env (SubData.Moved env n)) p.records q.records ∧ ∀ r ∈ p.records, r.WF env := by
      rw [records_data h1, records_data h2]
      match d, d', h3, g3 with
      | .sds a, .sds b, h3, g3 => exact ⟨h3, g3.2⟩
      | .resp a, .resp b, h3, g3 =>
        refine ⟨h3.2.2.1, fun r hr => ?_⟩
        cases he : a.sdr with
        | none => simp only [FrameData.records, he, Option.getD_none, List.not_mem_nil] at hr
        | some s => exact g3 s he r (by simpa only [FrameData.records, he, Option.getD_some] using hr)
    obtain ⟨hr, hw⟩ := hr
    unfold Package.positions
    generalize p.records = rs at hr hw ⊢
    generalize q.records = rs' at hr ⊢
    revert hw
    induction hr with
    | nil => intro _; exact .nil
    | @cons r r' l l' e _ ih =>
      intro hw
      rw [List.flatMap_cons, List.flatMap_cons]
      refine List.rel_append ?_ (ih fun x hx => hw x (by simp [hx]))
      obtain ⟨_, _, _, _, _, _, _, _, hwr, _⟩ := hw r (by simp)
      obtain ⟨e, _⟩ := e
      generalize r.recordDataSet = ds at e hwr ⊢
      generalize r'.recordDataSet = ds' at e ⊢
      revert hwr
      induction e with
      | nil => intro _; exact .nil
      | @cons x x' m m' k _ ih =>
        intro hwr
        obtain ⟨d, _, hd, hwd, _⟩ := hwr x (by simp)
        obtain ⟨y, z, _, k1, k2, k3, _⟩ := k
        rw [hd] at k1; cases k1
        have ih := ih fun x hx => hwr x (by simp [hx])
        cases d with
        | pos a =>
          cases z <;> first | exact k3.elim | skip
          rename_i b
          rw [List.filterMap_cons_some (b := a) (by rw [hd]), List.filterMap_cons_some (b := b) (by rw [k2])]
          obtain ⟨n1, n2⟩ := moved_near hwd k3
          refine .cons ⟨by push_cast; exact n1, by push_cast; exact n2, ?_⟩ ih
          cases (k3 : b = _)
          exact ⟨rfl, rfl, rfl⟩
        | _ a =>
          cases z <;> first | exact k3.elim | skip
          rw [List.filterMap_cons_none (by rw [hd]), List.filterMap_cons_none (by rw [k2])]
          exact ih

/-- In the end nothing moves any more: the packages after 2^32 relays and after any larger number are the same. -/
theorem C113_settles (env : Env) (p q q' : Package) (hc : p.Carried env) (n n' : Nat) (hn : 2 ^ 32 ≤ n) (hn' : n ≤ n')
    (h : Passed env none n p q) (h' : Passed env none n' p q') : q' = q := by
  induction hn' generalizing q' with
  | refl => exact passed_unique h' h
  | @step m hm ih =>
    have hm : n ≤ m := hm
    cases h' with
    | @next _ _ q1 _ out h1 e1 d1 =>
      cases ih q1 h1
      obtain ⟨k, rfl⟩ : ∃ k, m = k + 2 := ⟨m - 2, by omega⟩
      cases h1 with
      | @next _ _ q0 _ out0 h0 e0 d0 =>
        obtain ⟨d, d', _, g1, g2, g3, _⟩ := (C113_passed env p hc k).2 q0 h0
        have hc0 := package_again hc ((C113_passed env p hc k).2 q0 h0)
        obtain ⟨out1, q2, f1, f2, f3, _⟩ := package_hop hc0
        rw [f1] at e0; cases e0
        rw [f2] at d0; cases d0
        have hst : q0.Steady env := by
          have hr : List.Forall₂ (ServiceDataRecord.Rel env (SubData.Moved env k)) p.records q0.records := by
            rw [records_data g1, records_data g2]
            match d, d', g3 with
            | .sds a, .sds b, g3 => exact g3
            | .resp a, .resp b, g3 => exact g3.2.2.1
          intro r' hr' rd' hrd' y hy
          have hsound := hc0.2.1 r' hr' rd' hrd' y hy
          obtain ⟨r, _, i1, _⟩ := forall₂_back hr r' hr'
          obtain ⟨rd, _, i2⟩ := forall₂_back i1 rd' hrd'
          obtain ⟨x, y', _, j1, j2, j3, _⟩ := i2
          rw [hy] at j2; cases j2
          cases y with
          | pos b =>
            cases x <;> first | exact j3.elim | skip
            cases (j3 : b = _)
            show latOnward env (latOnward env ((latOnward env)^[k] _)) = latOnward env ((latOnward env)^[k] _) ∧
              lonOnward env (lonOnward env ((lonOnward env)^[k] _)) = lonOnward env ((lonOnward env)^[k] _)
            rw [← onward_succ (latOnward env), ← onward_succ (latOnward env), ← onward_succ (lonOnward env), ← onward_succ (lonOnward env)]
            exact ⟨onward_settles _ (C33_latitude_drift env) (k + 1) _ (Nat.le_of_lt_succ (Nat.lt_of_lt_of_le (UInt32.toNat_lt _) (by omega))), onward_settles _ (C33_longitude_drift env) (k + 1) _ (Nat.le_of_lt_succ (Nat.lt_of_lt_of_le (UInt32.toNat_lt _) (by omega)))⟩
          | adSens b => exact hsound
          | counters b => exact hsound
          | _ => trivial
        have := package_reencode env none {} q0 q hc0.1 hst f3
        rw [this, f1] at e1
        cases e1
        rw [f2] at d1
        cases d1
        rfl

/-! ## It does drift -/

/-- A latitude of 64.0013 degrees. -/
def farLat : F64 := 4503717738397723 / 70368744177664

theorem farLat_enc (env : Env) : encLat env farLat = 3054279064 :=
  toU32_eq env _ 3054279064 (by decide +kernel) (by decide +kernel) (by norm_num)

def farPackage : Package := { pkgAt farLat with headerLength := 11 }

theorem far_wf (env : Env) : farPackage.WF env none := by
  have b0 : IsBit (go!"0") := by decide
  have b1 : IsBit (go!"1") := by decide
  have b00 : IsBits2 (go!"00") := by decide
  have hrd : (⟨16, 21, some (.pos (posAt farLat))⟩ : RecordData).WF env := by
    refine ⟨_, _, rfl, ⟨⟨b0, b0, b0, b0, b0, b0, b0, b0, ⟨0, by decide, rfl⟩, (by decide : (0 : UInt8) < 2), (by decide : (0 : UInt8) < 2),
      (by decide : (0 : UInt16) ≤ 1638), (by decide : (0 : UInt32).toNat < 2 ^ 24),
      fun h => absurd (show go!"0" = go!"1" from h) (by decide)⟩, ?_, ?_⟩, .inl rfl, posAt_encode env farLat, by simp [put32], .inr rfl⟩
    · show (0 : Rat) ≤ farLat ∧ farLat ≤ (90 : Rat)
      decide +kernel
    · show (0 : Rat) ≤ 0 ∧ 0 ≤ (180 : Rat)
      decide +kernel
  refine ⟨⟨b00, b0, b00, b0, b00, .inr rfl⟩, .sds [recAt farLat], _, rfl, rfl, ⟨by simp, ?_⟩, ⟨_, recAt_encode env farLat _ (farLat_enc env), .inl ⟨rfl, rfl⟩⟩,
    by decide, by decide⟩
  intro r hr
  simp only [List.mem_singleton] at hr
  subst hr
  refine ⟨b0, b0, b0, b00, b0, b0, b1, fun h => absurd (show go!"0" = go!"1" from h) (by decide), ?_,
    [16, 21, 0, 0, 0, 0, 0] ++ put32 3054279064 ++ [0, 0, 0, 0, 0, 0, 0, 0, 0, 0, 0, 0, 0], ?_, by decide, .inr rfl⟩
  · intro rd hrd'
    simp only [recAt, Ex.recO, List.mem_singleton] at hrd'
    subst hrd'
    exact hrd
  · rw [← farLat_enc env]
    unfold recAt Ex.recO
    simp only [RecordDataSet.encode, RecordData.encode, SubData.length, SubData.encode, posAt_encode]
    generalize encLat env farLat = v
    with_unfolding_all rfl

theorem far_carried (env : Env) : farPackage.Carried env := by
  refine ⟨far_wf env, ?_, rfl, ?_⟩
  · intro r hr rd hrd d hd
    simp only [farPackage, pkgAt, Ex.pkg, Package.records, List.mem_singleton] at hr
    subst hr
    simp only [recAt, Ex.recO, List.mem_singleton] at hrd
    subst hrd
    cases hd
    intro h
    exact absurd (show (0 : UInt8) = 1 from h) (by decide)
  · intro body hb
    obtain ⟨x, hx, ⟨_, hbx⟩ | ⟨h, _⟩⟩ := hb
    · subst hbx
      have hx : ServiceDataSet.encode env [recAt farLat] = .ok body := hx
      rw [recAt_encode env farLat _ (farLat_enc env)] at hx
      cases hx
      decide
    · exact absurd rfl h

/-- Full statement of C113 (not provable): the positions arrive within one unit of the wire format of where they were. A package with one
position, passed on 1433 times, arrives 1433 units off: the latitude is wrong by more than 30 millionths of a degree (3 metres). -/
theorem C113_false (env : Env) : ∃ (p q : Package) (a b : SrPosData), p.Carried env ∧ Passed env none 1434 p q ∧ p.positions = [a] ∧ q.positions = [b] ∧
    b.latitude = decLat (encLat env a.latitude - 1433) ∧ 30 / 1000000 < a.latitude - b.latitude := by
  obtain ⟨⟨q, h⟩, hm⟩ := C113_passed env farPackage (far_carried env) 1433
  obtain ⟨d, d', _, h1, h2, h3, _⟩ := hm q h
  have hd : d = .sds [recAt farLat] := by
    have : farPackage.servicesFrameData = some (.sds [recAt farLat]) := rfl
    rw [this] at h1
    cases h1; rfl
  subst hd
  match d', h3 with
  | .sds b, h3 =>
    cases h3 with
    | @cons _ r _ l e1 e2 =>
      cases e2
      obtain ⟨e1, _⟩ := e1
      have hrs : (recAt farLat).recordDataSet = [⟨16, 21, some (.pos (posAt farLat))⟩] := rfl
      rw [hrs] at e1
      generalize hs : r.recordDataSet = s at e1
      cases e1 with
      | @cons _ rd _ l k1 k2 =>
        cases k2
        obtain ⟨x, y, _, i1, i2, i3, _⟩ := k1
        cases i1
        cases y <;> first | exact i3.elim | skip
        rename_i b
        refine ⟨farPackage, q, posAt farLat, b, far_carried env, h, rfl, ?_, ?_, ?_⟩
        · unfold Package.positions Package.records
          rw [h2]
          simp only [List.flatMap_cons, List.flatMap_nil, hs, List.append_nil]
          rw [List.filterMap_cons_some (b := b) (by rw [i2])]
          rfl
        · cases (i3 : b = _)
          show decLat ((latOnward env)^[1433] (encLat env farLat)) = decLat (encLat env farLat - 1433)
          rw [farLat_enc, (C113_run env 1433 (Nat.le_refl _)).1]
          rfl
        · cases (i3 : b = _)
          show _ < farLat - decLat ((latOnward env)^[1433] (encLat env farLat))
          rw [farLat_enc, (C113_run env 1433 (Nat.le_refl _)).1]
          decide +kernel

/-- The hypotheses of `C113_passed` and the others hold for that package. -/
example (env : Env) : farPackage.Carried env ∧ ∃ q, Passed env none 5 farPackage q := ⟨far_carried env, (C113_passed env farPackage (far_carried env) 4).1⟩

end Egts
