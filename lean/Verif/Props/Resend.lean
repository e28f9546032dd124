import Verif.Spec.Resend
import Verif.Props.Memory
import Verif.Props.EndToEnd

/-! # Packets that are sent again (C99) -/

namespace Egts

theorem storedAs_untimed (now : Int) (c id : UInt32) (subs : List RecordData) (d : SrPosData) :
    (storedAs now c id subs d).untimed = storedAs 0 c id subs d := rfl

theorem stored_untimed (pid : UInt16) (now : Int) (c : UInt32) (recs : List ServiceDataRecord) :
    (stored pid now c recs).map (·.untimed) = stored pid 0 c recs := by
  unfold stored
  rw [List.map_filterMap]
  congr 1
  funext ⟨r, i⟩
  simp only
  cases (r.recordDataSet.filterMap (·.pos?)).getLast? <;> rfl

theorem stored_self (pid : UInt16) (now : Int) (c c' : UInt32) (recs : List ServiceDataRecord) (h : SelfIdentified recs) :
    stored pid now c recs = stored pid now c' recs := by
  unfold stored
  apply List.filterMap_congr
  rintro ⟨r, i⟩ hm
  have hi := List.mem_zipIdx_iff_getElem?.mp hm
  simp only at hi ⊢
  cases hd : (r.recordDataSet.filterMap (·.pos?)).getLast? with
  | none => rfl
  | some d =>
    have hp : r.hasPos = true := by
      obtain ⟨x, hx, hxd⟩ := List.mem_filterMap.mp (List.mem_of_getLast? hd)
      unfold ServiceDataRecord.hasPos
      rw [List.any_eq_true]
      exact ⟨x, hx, by rw [hxd]; rfl⟩
    have hne := h i r hi hp
    have : ∀ c, lastOr ((recs.take (i + 1)).flatMap (·.ids)) c = ((recs.take (i + 1)).flatMap (·.ids)).getLast hne := by
      intro c
      unfold lastOr
      rw [List.getLast?_eq_some_getLast hne]
      rfl
    simp only [Option.map_some, this]

theorem accepted_honest (env : Env) {f : Bytes} (h : Frame.Honest f) (sp : Bytes) : accepted env ⟨f, sp⟩ = accepted env ⟨f, []⟩ := by
  unfold accepted
  rw [C77_honest env none {} f sp [] (.inl h)]

theorem saves_end (env : Env) (ce : ConnEnv) (frames : List Bytes) (hf : ∀ f ∈ frames, WellFramed f) (hn : NoPanic env ce frames) (e : End) :
    saves (handleConn env ce frames.flatten e) = saves (handleConn env ce frames.flatten .blocked) := by
  obtain ⟨h1, h2, h3⟩ := C42_pipelined env ce frames hf hn
  cases e
  · rw [h2, h1, saves_append]; simp [saves]
  · rw [h3, h1, saves_append]; simp [saves]
  · rfl

/-! ## C99 -/

/-- A packet with a position and nothing that says whose it is. -/
def anonymous : Bytes := [1, 0, 0, 11, 0, 31, 0, 5, 0, 1, 83, 24, 0, 7, 0, 0, 2, 2, 16, 21, 0, 0, 0, 0, 0, 0, 0, 0, 0, 0, 0, 0, 0, 0, 0, 0, 0, 0,
  0, 0, 0, 0, 36, 50]

def anonymousRecs : List ServiceDataRecord := [Ex.recN 24 7 2 [Ex.posSub 0]]

set_option maxRecDepth 40000 in
theorem anonymous_decode (env : Env) : Package.decode env none {} ⟨anonymous, []⟩ = .ret (Ex.pkg 31 83 12836 anonymousRecs) 0 none := by
  with_unfolding_all rfl

theorem anonymous_accepts (env : Env) (sp : Bytes) : Accepts env ⟨anonymous, sp⟩ (Ex.pkg 31 83 12836 anonymousRecs) anonymousRecs :=
  ⟨accept_spare env none {} (anonymous_decode env), rfl, rfl⟩

/-- What is saved for packets that say themselves whose positions they carry, on any connection and whatever comes before, after or between
them: for each the same records each time, apart from the time of receipt. -/
theorem C99_every_time (env : Env) (ce : ConnEnv) (frames : List Bytes) (h : ∀ f ∈ frames, Independent env f) (e : End) :
    (saves (handleConn env ce frames.flatten e)).map (·.untimed) = frames.flatMap (content env) := by
  have hf : ∀ f ∈ frames, WellFramed f := fun f hm => (h f hm).framed
  have hn : NoPanic env ce frames := fun i f hi => C11_no_panic_partial env none {} _ (.inl (h f (List.mem_of_getElem? hi)).honest)
  rw [saves_end env ce frames hf hn, C49_all_saved env ce frames hf hn, List.map_flatMap]
  have h0 : frames.flatMap (content env) = frames.zipIdx.flatMap fun x => content env x.1 := by
    conv_lhs => rw [← List.zipIdx_map_fst 0 frames]
    rw [List.flatMap_map]
  rw [h0]
  apply List.flatMap_congr
  rintro ⟨f, i⟩ hm
  have hff := h f (List.mem_of_getElem? (List.mem_zipIdx_iff_getElem?.mp hm))
  simp only
  rw [accepted_honest env hff.honest]
  unfold content
  cases ha : accepted env ⟨f, []⟩ with
  | none => rfl
  | some x =>
    simp only
    rw [stored_untimed, stored_self x.1 0 _ 0 _ (hff.self _ _ ha)]

theorem good_independent (env : Env) : Independent env Ex.good where
  framed := Ex.framed.2.1
  honest := by decide
  self := by
    intro pid recs h
    rw [accepted_of (Ex.good_accepts env [])] at h
    cases h
    intro i r hi _
    match i, hi with
    | 0, _ => decide
    | 1, _ => decide

theorem content_of {env : Env} {f : Bytes} {pid : UInt16} {recs : List ServiceDataRecord} (h : accepted env ⟨f, []⟩ = some (pid, recs)) :
    content env f = stored pid 0 0 (beforeResp recs) := by
  unfold content
  rw [h]

theorem good_content (env : Env) : content env Ex.good = stored 5 0 0 Ex.goodRecs := by
  have h := content_of (accepted_of (Ex.good_accepts env []))
  rwa [show beforeResp Ex.goodRecs = Ex.goodRecs from by decide] at h

/-- Full statement of C99 (not provable): `∀ f, Independent env f → saves (handleConn env ce (f ++ f) e) = saves (handleConn env ce f e)`.
A packet that comes again is stored again: whether on the same connection or on another. -/
theorem C99_false (env : Env) : ∃ f, Independent env f ∧ ∀ ce e,
    (saves (handleConn env ce f e)).length = 2 ∧ (saves (handleConn env ce (f ++ f) e)).length = 4 := by
  have h := good_independent env
  refine ⟨Ex.good, h, fun ce e => ?_⟩
  have h1 := congrArg List.length (C99_every_time env ce [Ex.good] (by simpa using h) e)
  have h2 := congrArg List.length (C99_every_time env ce [Ex.good, Ex.good] (by simpa using h) e)
  have h3 : (content env Ex.good).length = 2 := by rw [good_content]; rfl
  simp only [List.flatten_cons, List.flatten_nil, List.append_nil, List.length_map, List.flatMap_cons, List.flatMap_nil, List.length_append, h3] at h1 h2
  exact ⟨h1, h2⟩

/-- So repetitions can be removed afterwards, by comparing everything but the time of receipt: on two connections with the same packets, however
often and in whatever order, the same is stored. Missing: that the receiver does so (`C99_false`), and packets that do not say whose positions
they carry (`C99_identity_lost`). -/
theorem C99_recognisable_partial (env : Env) (ce ce' : ConnEnv) (frames frames' : List Bytes) (h : ∀ f ∈ frames, Independent env f)
    (hs : ∀ f, f ∈ frames ↔ f ∈ frames') (e e' : End) (r : NavRecord) :
    r ∈ (saves (handleConn env ce frames.flatten e)).map (·.untimed) ↔ r ∈ (saves (handleConn env ce' frames'.flatten e')).map (·.untimed) := by
  rw [C99_every_time env ce frames h e, C99_every_time env ce' frames' (fun f hf => h f ((hs f).mpr hf)) e']
  simp only [List.mem_flatMap, hs]

/-- The number of copies of a record is the number of times that it has been received. -/
theorem C99_copies (env : Env) (ce : ConnEnv) (frames : List Bytes) (h : ∀ f ∈ frames, Independent env f) (e : End) (r : NavRecord) :
    ((saves (handleConn env ce frames.flatten e)).map (·.untimed)).count r = (frames.map fun f => (content env f).count r).sum := by
  rw [C99_every_time env ce frames h e, List.count_flatMap]
  rfl

example (env : Env) (ce : ConnEnv) (n : Nat) : ∃ r, r.client = 9 ∧
    ((saves (handleConn env ce (List.replicate n Ex.good).flatten .eof)).map (·.untimed)).count r = n := by
  refine ⟨storedAs 0 9 5 [Ex.termSub, Ex.posSub 1] (Ex.zeroPos 1), rfl, ?_⟩
  rw [C99_copies env ce _ (fun f hf => by rw [List.eq_of_mem_replicate hf]; exact good_independent env)]
  have : (content env Ex.good).count (storedAs 0 9 5 [Ex.termSub, Ex.posSub 1] (Ex.zeroPos 1)) = 1 := by rw [good_content]; decide +kernel
  simp [this]

/-- A packet without an identifier, sent again on another connection, is stored as that of another client (0). -/
theorem C99_identity_lost (env : Env) : ∃ f g : Bytes, Independent env f ∧ WellFramed g ∧ Frame.Honest g ∧ ∀ ce e, ∃ a b n m,
    saves (handleConn env ce (f ++ g) e) = [a, b, n] ∧ n.client = 9 ∧ saves (handleConn env ce g e) = [m] ∧ m.client = 0 ∧
    m.untimed = { n.untimed with client := 0 } := by
  refine ⟨Ex.good, anonymous, good_independent env, by decide, by decide, fun ce e => ?_⟩
  have hf : ∀ f ∈ [Ex.good, anonymous], WellFramed f := by decide
  have hh : ∀ f ∈ [Ex.good, anonymous], Frame.Honest f := by decide
  have hn : NoPanic env ce [Ex.good, anonymous] := fun i f hi => C11_no_panic_partial env none {} _ (.inl (hh f (List.mem_of_getElem? hi)))
  have hn' : NoPanic env ce [anonymous] := fun i f hi => C11_no_panic_partial env none {} _ (.inl (hh f (by
    have := List.mem_of_getElem? hi
    simp only [List.mem_singleton] at this
    simp [this])))
  have h1 := saves_end env ce _ hf hn e
  rw [C49_all_saved env ce _ hf hn] at h1
  have h2 := saves_end env ce [anonymous] (by decide) hn' e
  rw [C49_all_saved env ce _ (by decide) hn'] at h2
  simp only [List.flatten_cons, List.flatten_nil, List.append_nil, List.zipIdx_cons, List.zipIdx_nil, List.flatMap_cons, List.flatMap_nil,
    accepted_of (Ex.good_accepts env _), accepted_of (anonymous_accepts env _), Nat.zero_add] at h1 h2
  have hi : idsBefore env ce [Ex.good, anonymous] 1 = [5, 9] := by
    unfold idsBefore packetIds
    simp only [List.take_succ_cons, List.take_zero, List.zipIdx_cons, List.zipIdx_nil, List.flatMap_cons, List.flatMap_nil, List.append_nil,
      accepted_of (Ex.good_accepts env _)]
    rfl
  have h0 : idsBefore env ce [anonymous] 0 = [] := rfl
  rw [hi] at h1
  rw [h0] at h2
  rw [h1, h2]
  exact ⟨_, _, _, _, rfl, rfl, rfl, rfl, rfl⟩

end Egts
