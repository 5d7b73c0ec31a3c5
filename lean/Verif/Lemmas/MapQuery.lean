import Verif.Model.MapQuery
import Verif.Props.Interp
import Verif.Lemmas.IndexFloat

namespace Vox.MapQuery

open Layer Grid Interp Spec Ieee

variable {V : Type}

theorem voxelAt_ok {l : VLayer V} (wf : WellFormed l) {pos : Pt} (hp : Addressable l pos) : voxelAt l pos = .ok (content l (gIdx l pos)) := by
  unfold voxelAt blockAtCoords
  rw [blockIndexOf_ok wf hp]
  simp only [Outcome.bind_ok, Outcome.pure_eq]
  have eg : gIdx l pos = globalIndex l.cfg.vps (bIdx l pos) (vIdx l pos) := rfl
  cases hb : block? l (bIdx l pos) with
  | none => rw [eg, content_none hb (vIdx_inBlock wf pos)]
  | some b =>
    obtain ⟨x, hx, hc⟩ := voxelByIndex_content wf hb (vIdx_inBlock wf pos)
    unfold voxelByCoords
    simp only [truncated_ok wf hb, Outcome.bind_ok, hx]
    rw [eg, hc]

theorem nearestTo_ok {l : VLayer V} (wf : WellFormed l) (obs : V → Bool) (sdf : V → ℚ) {pos : Pt} (hp : Addressable l pos) (out : ℚ) :
    nearestTo l obs sdf pos out = .ok (match content l (gIdx l pos) with
      | none => (false, out)
      | some x => (obs x, sdf x)) := by
  unfold nearestTo
  rw [voxelAt_ok wf hp, Outcome.bind_ok]
  cases content l (gIdx l pos) <;> rfl

/-- The flag and, on success, the value agree with the `Option` of the model of the interpolator. -/
theorem distanceTo_get {l : VLayer V} (wf : WellFormed l) (obs : V → Bool) (sdf : V → ℚ) (interpolate : Bool) {pos : Pt} (hp : Addressable l pos) (out : ℚ) :
    ∃ r b d, getDistance l obs sdf interpolate pos = .ok r ∧ distanceTo l obs sdf interpolate pos out = .ok (b, d) ∧
      (b = true → r = some d) ∧ (b = false → r = none) := by
  cases interpolate with
  | true =>
    obtain ⟨r, hr⟩ := interp_defined wf obs sdf hp
    have e1 : getDistance l obs sdf true pos = .ok r := hr
    have e2 : distanceTo l obs sdf true pos out = interpTo l obs sdf pos out := rfl
    rw [e2]
    unfold interpTo
    rw [hr, Outcome.bind_ok]
    cases r with
    | none => exact ⟨none, false, out, e1, rfl, by simp, by simp⟩
    | some d => exact ⟨some d, true, d, e1, rfl, by simp, by simp⟩
  | false =>
    have e1 : getDistance l obs sdf false pos = .ok _ := nearest_spec wf obs sdf hp
    have e2 : distanceTo l obs sdf false pos out = _ := nearestTo_ok wf obs sdf hp out
    rw [e1, e2]
    cases hc : content l (gIdx l pos) with
    | none => exact ⟨_, _, _, rfl, rfl, by simp, by simp⟩
    | some x =>
      refine ⟨_, _, _, rfl, rfl, ?_, ?_⟩ <;> intro h <;> simp [Option.filter_some, h]

/-- What the caller sees. -/
def answer (out : ℚ) : Option ℚ → Bool × ℚ
  | none => (false, out)
  | some d => (true, d)

theorem getDistanceAtPosition_get {l : VLayer (EsdfVoxel ℚ)} (wf : WellFormed l) (interpolate : Bool) {p : Pt} (hp : Addressable l (castPos p)) (out : ℚ) :
    ∃ r, getDistance l obsEsdf (·.distance) interpolate (castPos p) = .ok r ∧
      getDistanceAtPosition l interpolate p out = .ok (answer out r) := by
  obtain ⟨r, b, d, h1, h2, h3, h4⟩ := distanceTo_get wf obsEsdf (·.distance) interpolate hp 0
  refine ⟨r, h1, ?_⟩
  unfold getDistanceAtPosition
  rw [h2, Outcome.bind_ok]
  cases b with
  | true => rw [h3 rfl]; rfl
  | false => rw [h4 rfl]; rfl

theorem getWeightAtPosition_get {l : VLayer (TsdfVoxel ℚ)} (wf : WellFormed l) (interpolate : Bool) {p : Pt} (hp : Addressable l (castPos p)) (out : ℚ) :
    ∃ r, getDistance l obsTsdf (·.weight) interpolate (castPos p) = .ok r ∧
      getWeightAtPosition l interpolate p out = .ok (answer out r) := by
  obtain ⟨r, b, d, h1, h2, h3, h4⟩ := distanceTo_get wf obsTsdf (·.weight) interpolate hp 0
  refine ⟨r, h1, ?_⟩
  unfold getWeightAtPosition
  rw [h2, Outcome.bind_ok]
  cases b with
  | true => rw [h3 rfl]; rfl
  | false => rw [h4 rfl]; rfl

/-- The voxel a position is attributed to is one of the eight around it. -/
theorem gIdx_corner {l : VLayer V} (wf : WellFormed l) {pos : Pt} {g : Idx} (hg : InDualCell l.cfg.voxelSize g pos) :
    ∃ c, IsCorner c ∧ gIdx l pos = g + c := by
  have ax : ∀ {q : ℚ} {k : ℤ}, ((k : ℚ) + 1 / 2) * l.cfg.voxelSize ≤ q ∧ q < ((k : ℚ) + 3 / 2) * l.cfg.voxelSize →
      ∃ c : ℤ, (c = 0 ∨ c = 1) ∧ bAx l.cfg.vps l.cfg.voxelSize q * l.cfg.vps + vAx l.cfg.vps l.cfg.voxelSize q = k + c := by
    intro q k h
    rcases (shiftAxis_spec wf.side_pos wf.side_le wf.size_pos h.1 h.2).2 with e | e
    · exact ⟨0, .inl rfl, by rw [e, add_zero]⟩
    · exact ⟨1, .inr rfl, e⟩
  obtain ⟨hx, hy, hz⟩ := hg
  obtain ⟨cx, h1, e1⟩ := ax hx
  obtain ⟨cy, h2, e2⟩ := ax hy
  obtain ⟨cz, h3, e3⟩ := ax hz
  exact ⟨⟨cx, cy, cz⟩, ⟨h1, h2, h3⟩, Vec3.ext e1 e2 e3⟩

/-! ### Gradients -/

theorem gradientTo_get {l : VLayer V} (wf : WellFormed l) (obs : V → Bool) (sdf : V → ℚ) (interpolate : Bool) {pos : Pt} (hp : Interior l pos) (out : Pt) :
    ∃ r b g, getGradient l obs sdf interpolate pos = .ok r ∧ gradientTo l obs sdf interpolate pos out = .ok (b, g) ∧
      (b = true → r = some g) ∧ (b = false → r = none) := by
  obtain ⟨h0, hadd⟩ := addressable_of_interior wf hp
  have dist : ∀ q, Addressable l q → ∃ r, getDistance l obs sdf interpolate q = .ok r := by
    intro q hq
    obtain ⟨r, -, -, h, -⟩ := distanceTo_get wf obs sdf interpolate hq 0
    exact ⟨r, h⟩
  obtain ⟨p0, hp0⟩ := dist _ (hadd 0).1
  obtain ⟨n0, hn0⟩ := dist _ (hadd 0).2.1
  obtain ⟨p1, hp1⟩ := dist _ (hadd 1).1
  obtain ⟨n1, hn1⟩ := dist _ (hadd 1).2.1
  obtain ⟨p2, hp2⟩ := dist _ (hadd 2).1
  obtain ⟨n2, hn2⟩ := dist _ (hadd 2).2.1
  unfold getGradient gradientTo blockAtCoords
  rw [blockIndexOf_ok wf h0]
  simp only [Outcome.bind_ok, Outcome.pure_eq]
  cases hb : block? l (bIdx l pos) with
  | none => exact ⟨none, false, out, rfl, rfl, by simp, by simp⟩
  | some b =>
    have hs : b.voxelSize = l.cfg.voxelSize := (wf.block _ _ hb).2.1
    simp only [hs]
    unfold gradientAxis
    simp only [samples, gradientLoop, neg_one_mul, one_mul, hp0, hn0, hp1, hn1, hp2, hn2, Outcome.bind_ok, Outcome.pure_eq]
    cases n0 <;> cases p0 <;> cases n1 <;> cases p1 <;> cases n2 <;> cases p2 <;> simp [Outcome.bind_ok, addTo, axisOffset, Vec3.map]

/-! ### Batches -/

theorem getElem?_set_self' {α : Type} {xs : List α} {i : ℕ} (h : i < xs.length) (a : α) : (xs.set i a)[i]? = some a := by
  rw [List.getElem?_set_self h]

theorem distanceLoop_ok {l : VLayer (EsdfVoxel ℚ)} : ∀ {ps : List Pt} {i : ℕ} {st st' : List ℚ × List Bool}, distanceLoop l i ps st = .ok st' →
    i + ps.length ≤ st.1.length → i + ps.length ≤ st.2.length →
    st'.1.length = st.1.length ∧ st'.2.length = st.2.length ∧
      (∀ k p, ps[k]? = some p → ∃ r, getDistanceAtPosition l true p (st.1.getD (i + k) 0) = .ok r ∧ st'.1[i + k]? = some r.2 ∧ st'.2[i + k]? = some r.1) ∧
      ∀ m, m < i ∨ i + ps.length ≤ m → st'.1[m]? = st.1[m]? ∧ st'.2[m]? = st.2[m]? := by
  intro ps
  induction ps with
  | nil =>
    intro i st st' h _ _
    have := (Outcome.ok.inj h).symm
    subst this
    exact ⟨rfl, rfl, fun k p hk => by simp at hk, fun m _ => ⟨rfl, rfl⟩⟩
  | cons q ps ih =>
    intro i st st' h h1 h2
    obtain ⟨r, hr, h⟩ := Outcome.bind_eq_ok.1 h
    rw [List.length_cons] at h1 h2
    obtain ⟨e1, e2, e3, e4⟩ := ih h (by rw [List.length_set]; omega) (by rw [List.length_set]; omega)
    simp only [List.length_set] at e1 e2
    refine ⟨e1, e2, ?_, ?_⟩
    · intro k p hk
      cases k with
      | zero =>
        have : q = p := Option.some.inj hk
        subst this
        obtain ⟨a, b⟩ := e4 i (.inl (by omega))
        refine ⟨r, hr, ?_, ?_⟩
        · rw [Nat.add_zero, a, getElem?_set_self' (by omega)]
        · rw [Nat.add_zero, b, getElem?_set_self' (by omega)]
      | succ k =>
        obtain ⟨r', h', a, b⟩ := e3 k p hk
        rw [List.getD_eq_getElem?_getD, List.getElem?_set_ne (by omega), ← List.getD_eq_getElem?_getD] at h'
        rw [show i + 1 + k = i + (k + 1) by omega] at h' a b
        exact ⟨r', h', a, b⟩
    · intro m hm
      rw [List.length_cons] at hm
      obtain ⟨a, b⟩ := e4 m (by omega)
      rw [a, b, List.getElem?_set_ne (by omega), List.getElem?_set_ne (by omega)]
      exact ⟨rfl, rfl⟩

theorem distanceLoop_defined {l : VLayer (EsdfVoxel ℚ)} (wf : WellFormed l) : ∀ {ps : List Pt} (i : ℕ) (st : List ℚ × List Bool),
    (∀ p ∈ ps, Addressable l (castPos p)) → ∃ st', distanceLoop l i ps st = .ok st' := by
  intro ps
  induction ps with
  | nil => intro i st _; exact ⟨st, rfl⟩
  | cons q ps ih =>
    intro i st h
    obtain ⟨r, -, hr⟩ := getDistanceAtPosition_get wf true (h q List.mem_cons_self) (st.1.getD i 0)
    obtain ⟨st', h'⟩ := ih (i + 1) _ (fun p hp => h p (List.mem_cons_of_mem _ hp))
    refine ⟨st', ?_⟩
    unfold distanceLoop
    rw [hr, Outcome.bind_ok]
    exact h'

theorem gradientBatchLoop_ok {l : VLayer (EsdfVoxel ℚ)} : ∀ {ps : List Pt} {i : ℕ} {st st' : List ℚ × List Pt × List Bool},
    gradientBatchLoop l i ps st = .ok st' → i + ps.length ≤ st.1.length → i + ps.length ≤ st.2.1.length → i + ps.length ≤ st.2.2.length →
    st'.1.length = st.1.length ∧ st'.2.1.length = st.2.1.length ∧ st'.2.2.length = st.2.2.length ∧
      (∀ k p, ps[k]? = some p → ∃ r, getDistanceAndGradientAtPosition l true p = .ok r ∧ st'.1[i + k]? = some r.2.1 ∧ st'.2.1[i + k]? = some r.2.2 ∧
        st'.2.2[i + k]? = some r.1) ∧
      ∀ m, m < i ∨ i + ps.length ≤ m → st'.1[m]? = st.1[m]? ∧ st'.2.1[m]? = st.2.1[m]? ∧ st'.2.2[m]? = st.2.2[m]? := by
  intro ps
  induction ps with
  | nil =>
    intro i st st' h _ _ _
    have := (Outcome.ok.inj h).symm
    subst this
    exact ⟨rfl, rfl, rfl, fun k p hk => by simp at hk, fun m _ => ⟨rfl, rfl, rfl⟩⟩
  | cons q ps ih =>
    intro i st st' h h1 h2 h3
    obtain ⟨r, hr, h⟩ := Outcome.bind_eq_ok.1 h
    rw [List.length_cons] at h1 h2 h3
    obtain ⟨e1, e2, e2', e3, e4⟩ := ih h (by rw [List.length_set]; omega) (by rw [List.length_set]; omega) (by rw [List.length_set]; omega)
    simp only [List.length_set] at e1 e2 e2'
    refine ⟨e1, e2, e2', ?_, ?_⟩
    · intro k p hk
      cases k with
      | zero =>
        have : q = p := Option.some.inj hk
        subst this
        obtain ⟨a, b, c⟩ := e4 i (.inl (by omega))
        refine ⟨r, hr, ?_, ?_, ?_⟩
        · rw [Nat.add_zero, a, getElem?_set_self' (by omega)]
        · rw [Nat.add_zero, b, getElem?_set_self' (by omega)]
        · rw [Nat.add_zero, c, getElem?_set_self' (by omega)]
      | succ k =>
        obtain ⟨r', h', a⟩ := e3 k p hk
        rw [show i + 1 + k = i + (k + 1) by omega] at a
        exact ⟨r', h', a⟩
    · intro m hm
      rw [List.length_cons] at hm
      obtain ⟨a, b, c⟩ := e4 m (by omega)
      rw [a, b, c, List.getElem?_set_ne (by omega), List.getElem?_set_ne (by omega), List.getElem?_set_ne (by omega)]
      exact ⟨rfl, rfl, rfl⟩

theorem observedLoop_ok {l : VLayer (EsdfVoxel ℚ)} : ∀ {ps : List Pt} {i : ℕ} {st st' : List Bool}, observedLoop l i ps st = .ok st' →
    i + ps.length ≤ st.length → st'.length = st.length ∧ (∀ k p, ps[k]? = some p → ∃ r, isObserved l p = .ok r ∧ st'[i + k]? = some r) ∧
      ∀ m, m < i ∨ i + ps.length ≤ m → st'[m]? = st[m]? := by
  intro ps
  induction ps with
  | nil =>
    intro i st st' h _
    have := (Outcome.ok.inj h).symm
    subst this
    exact ⟨rfl, fun k p hk => by simp at hk, fun m _ => rfl⟩
  | cons q ps ih =>
    intro i st st' h h1
    obtain ⟨r, hr, h⟩ := Outcome.bind_eq_ok.1 h
    rw [List.length_cons] at h1
    obtain ⟨e1, e3, e4⟩ := ih h (by rw [List.length_set]; omega)
    simp only [List.length_set] at e1
    refine ⟨e1, ?_, ?_⟩
    · intro k p hk
      cases k with
      | zero =>
        have : q = p := Option.some.inj hk
        subst this
        refine ⟨r, hr, ?_⟩
        rw [Nat.add_zero, e4 i (.inl (by omega)), getElem?_set_self' (by omega)]
      | succ k =>
        obtain ⟨r', h', a⟩ := e3 k p hk
        rw [show i + 1 + k = i + (k + 1) by omega] at a
        exact ⟨r', h', a⟩
    · intro m hm
      rw [List.length_cons] at hm
      rw [e4 m (by omega), List.getElem?_set_ne (by omega)]

end Vox.MapQuery
