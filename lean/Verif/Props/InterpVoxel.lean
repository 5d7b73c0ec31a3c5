/-
Property C116: the queries of the interpolator agree with one another. Property C117: the interpolated voxel, in `float` arithmetic.
-/
import Verif.Lemmas.InterpVoxel
import Verif.Props.InterpFloat

namespace Vox.InterpF

open Layer Grid Ieee Spec IndexF

open RoundErr (u_eq eta_eq rnd_fin)

open Props.IndexFloat (tenth tenth_size)

variable {V : Type}

/-! ### Example data -/

/-- A block of eight equal voxels of size `s`. -/
def sameBlock {V : Type} (s : ℚ) (x : V) (i : Idx) : Block ℚ V where
  vps := 2
  voxelSize := s
  origin := IndexF.originPoint i (blockSize s 2)
  voxels := [x, x, x, x, x, x, x, x]
  hasData := true
  updated := ⟨false, false, false⟩

/-- Two blocks beside one another along x, voxel size `s`. -/
def pair {V : Type} (s : ℚ) (i : ℤ) (x y : V) : VLayer V :=
  ⟨⟨s, 2⟩, [(⟨i, 0, 0⟩, sameBlock s x ⟨i, 0, 0⟩), (⟨i + 1, 0, 0⟩, sameBlock s y ⟨i + 1, 0, 0⟩)]⟩

theorem pair_shaped (s : ℚ) (i : ℤ) (x y : V) : Shaped (pair s i x y) := by
  refine ⟨by simp [pair], by simp [pair], ?_⟩
  intro j b h
  have := Layer.lookup_some_mem h
  simp only [pair, List.mem_cons, Prod.mk.injEq, List.not_mem_nil, or_false] at this
  rcases this with h | h <;> rw [h.2] <;> exact ⟨rfl, rfl⟩

/-- A TSDF voxel with the given weight and gray value. -/
def voxelOf (d w : ℚ) (c : BitVec 8) : TsdfVoxel Fl := ⟨.fin d, .fin w, ⟨c, c, c, 255⟩⟩

/-- A TSDF voxel as constructed: all zero. -/
def emptyVoxel : TsdfVoxel Fl := ⟨.fin 0, .fin 0, Color.default⟩

/-! ## C116 nearest-neighbour queries -/

/-- **C116.** Within 2¹⁹ voxels of the origin the four nearest-neighbour queries read the same voxel, one that contains the position up to the
rounding of the coordinates. If its block is missing, all four return false and leave their output alone. Otherwise they give the distance, the
weight and the voxel; three of them return whether the voxel is observed, `getNearestDistanceAndWeight` returns true. -/
theorem C116_nearest {l : VLayer V} (sh : Shaped l) (hs : Size l.cfg.voxelSize) (hS : l.cfg.voxelSize ≤ 2 ^ 80) {k : ℕ} (hk : k ≤ 10)
    (hn : l.cfg.vps = 2 ^ k) (A : Access V) {pos : Pt} {X : ℚ} (hX : WithinVoxels l.cfg.voxelSize X pos) (hX2 : X ≤ 2 ^ 19) :
    ∃ g : Idx, NearVoxel l.cfg.voxelSize ((4 * X + 6 * 2 ^ k + 16) / 2 ^ 24 + 2 / 1000000 * 2 ^ k) g pos ∧
      (content l g = none → ∀ d w v, getNearestDistance A l pos d = .ok (false, d) ∧ getNearestWeight A l pos w = .ok (false, w) ∧
        getNearestVoxel A l pos v = .ok (false, v) ∧ getNearestDistanceAndWeight A l pos (d, w) = .ok (false, d, w)) ∧
      ∀ x, content l g = some x → ∀ d w v, getNearestDistance A l pos d = .ok (A.obs x, A.sdf x) ∧
        getNearestWeight A l pos w = .ok (A.obs x, A.weight x) ∧ getNearestVoxel A l pos v = .ok (A.obs x, x) ∧
        getNearestDistanceAndWeight A l pos (d, w) = .ok (true, A.sdf x, A.weight x) := by
  obtain ⟨g, h1, h2⟩ := nearest sh hs hS hk hn hX hX2
  refine ⟨g, h1, ?_, ?_⟩
  · intro hc d w v
    rw [hc] at h2
    refine ⟨?_, ?_, ?_, ?_⟩
    · unfold getNearestDistance
      rw [h2]
      rfl
    · unfold getNearestWeight
      rw [h2]
      rfl
    · unfold getNearestVoxel
      rw [h2]
      rfl
    · unfold getNearestDistanceAndWeight
      rw [h2]
      rfl
  · intro x hc d w v
    rw [hc] at h2
    refine ⟨?_, ?_, ?_, ?_⟩
    · unfold getNearestDistance
      rw [h2]
      rfl
    · unfold getNearestWeight
      rw [h2]
      rfl
    · unfold getNearestVoxel
      rw [h2]
      rfl
    · unfold getNearestDistanceAndWeight
      rw [h2]
      rfl

example : Shaped (pair tenth 61 emptyVoxel (voxelOf 1 2 3)) ∧ Size tenth ∧ WithinVoxels tenth 125 ⟨12.45, 0.125, 0.125⟩ ∧
    getNearestVoxel tsdfAccess (pair tenth 61 emptyVoxel (voxelOf 1 2 3)) ⟨12.45, 0.125, 0.125⟩ emptyVoxel = .ok (true, voxelOf 1 2 3) ∧
    getNearestDistance tsdfAccess (pair tenth 61 emptyVoxel (voxelOf 1 2 3)) ⟨13, 0.125, 0.125⟩ (.fin 7) = .ok (false, .fin 7) :=
  ⟨pair_shaped _ _ _ _, tenth_size, ⟨by decide +kernel, by decide +kernel, by decide +kernel⟩, by decide +kernel, by decide +kernel⟩

/-- **C116.** At any position and in either mode: whenever the voxel query returns, the distance and weight queries return the same Boolean, and
when it is true they give the members of that voxel. -/
theorem C116_agree (rows : ℕ → Order) (last : Order) (l : VLayer (TsdfVoxel Fl)) (interpolate : Bool) (pos : Pt) (d w : Fl) {out v : TsdfVoxel Fl}
    {b : Bool} (h : getVoxel rows last l interpolate pos out = .ok (b, v)) :
    ∃ d' w', getDistance rows last tsdfAccess l interpolate pos d = .ok (b, d') ∧ getWeight rows last tsdfAccess l interpolate pos w = .ok (b, w') ∧
      (b = true → d' = v.distance ∧ w' = v.weight) := by
  unfold getVoxel at h
  unfold getDistance getWeight
  cases interpolate with
  | true =>
    simp only [if_true] at h ⊢
    unfold getInterpVoxel at h
    unfold getInterpDistance getInterpWeight
    cases hq : voxelsAndQ l tsdfAccess.obs pos with
    | fatal => rw [hq] at h; cases h
    | ub => rw [hq] at h; cases h
    | ok r =>
      rw [hq] at h
      cases r with
      | none =>
        have := Outcome.ok.inj h
        have hb : false = b := congrArg Prod.fst this
        subst hb
        exact ⟨d, w, rfl, rfl, fun e => absurd e (by decide)⟩
      | some p =>
        obtain ⟨xs, q⟩ := p
        simp only [Outcome.bind_ok] at h ⊢
        obtain ⟨v', hv, h'⟩ := Outcome.bind_eq_ok.1 h
        have := Outcome.ok.inj h'
        have hb : true = b := congrArg Prod.fst this
        have hv' : v' = v := congrArg Prod.snd this
        subst hb hv'
        refine ⟨_, _, rfl, rfl, fun _ => ?_⟩
        unfold interpVoxel at hv
        obtain ⟨_, _, hv⟩ := Outcome.bind_eq_ok.1 hv
        obtain ⟨_, _, hv⟩ := Outcome.bind_eq_ok.1 hv
        obtain ⟨_, _, hv⟩ := Outcome.bind_eq_ok.1 hv
        obtain ⟨_, _, hv⟩ := Outcome.bind_eq_ok.1 hv
        have := Outcome.ok.inj hv
        rw [← this]
        exact ⟨rfl, rfl⟩
  | false =>
    simp only [Bool.false_eq_true, if_false] at h ⊢
    unfold getNearestVoxel at h
    unfold getNearestDistance getNearestWeight
    cases hq : voxelAtCoords l pos with
    | fatal => rw [hq] at h; cases h
    | ub => rw [hq] at h; cases h
    | ok r =>
      rw [hq] at h
      cases r with
      | none =>
        have := Outcome.ok.inj h
        have hb : false = b := congrArg Prod.fst this
        subst hb
        exact ⟨d, w, rfl, rfl, fun e => absurd e (by decide)⟩
      | some x =>
        have := Outcome.ok.inj h
        have hb : tsdfAccess.obs x = b := congrArg Prod.fst this
        have hv : x = v := congrArg Prod.snd this
        subst hb hv
        exact ⟨_, _, rfl, rfl, fun _ => ⟨rfl, rfl⟩⟩

example : getVoxel (fun _ => inTurn) byHalves (pair tenth 61 (voxelOf 0 1 10) (voxelOf 1 2 30)) true ⟨12.375, 0.125, 0.125⟩ emptyVoxel =
      .ok (true, ⟨.fin (131075 / 524288), .fin (655363 / 524288), ⟨15, 15, 15, 255⟩⟩) ∧
    getDistance (fun _ => inTurn) byHalves tsdfAccess (pair tenth 61 (voxelOf 0 1 10) (voxelOf 1 2 30)) true ⟨12.375, 0.125, 0.125⟩ (.fin 0) =
      .ok (true, .fin (131075 / 524288)) := by
  decide +kernel

/-- **C116, partial.** (In full: a query that returns false leaves its output alone; `C116_output_violated` shows that the nearest-neighbour
queries write it.) The interpolating queries leave it alone. -/
theorem C116_output_partial (rows : ℕ → Order) (last : Order) (A : Access V) (l : VLayer V) (pos : Pt) {d d' : Fl} :
    (getInterpDistance rows last A l pos d = .ok (false, d') → d' = d) ∧ (getInterpWeight rows last A l pos d = .ok (false, d') → d' = d) ∧
    ∀ (L : VLayer (TsdfVoxel Fl)) (v v' : TsdfVoxel Fl), getInterpVoxel rows last L pos v = .ok (false, v') → v' = v := by
  refine ⟨?_, ?_, ?_⟩
  · intro h
    unfold getInterpDistance at h
    obtain ⟨r, hr, h⟩ := Outcome.bind_eq_ok.1 h
    cases r with
    | none => exact (congrArg Prod.snd (Outcome.ok.inj h)).symm
    | some p => exact absurd (congrArg Prod.fst (Outcome.ok.inj h)) (by simp)
  · intro h
    unfold getInterpWeight at h
    obtain ⟨r, hr, h⟩ := Outcome.bind_eq_ok.1 h
    cases r with
    | none => exact (congrArg Prod.snd (Outcome.ok.inj h)).symm
    | some p => exact absurd (congrArg Prod.fst (Outcome.ok.inj h)) (by simp)
  · intro L v v' h
    unfold getInterpVoxel at h
    obtain ⟨r, hr, h⟩ := Outcome.bind_eq_ok.1 h
    cases r with
    | none => exact (congrArg Prod.snd (Outcome.ok.inj h)).symm
    | some p =>
      obtain ⟨x, hx, h⟩ := Outcome.bind_eq_ok.1 h
      exact absurd (congrArg Prod.fst (Outcome.ok.inj h)) (by simp)

example : getInterpDistance (fun _ => inTurn) byHalves tsdfAccess (pair tenth 61 emptyVoxel (voxelOf 1 2 3)) ⟨12.375, 0.125, 0.125⟩ (.fin 7) =
    .ok (false, .fin 7) := by
  decide +kernel

/-- **C116, violated.** A nearest-neighbour query that returns false may have written its output: in an allocated voxel that was never observed
the caller's 7 m becomes 0 m, the value of a surface. -/
theorem C116_output_violated : getNearestDistance tsdfAccess (pair tenth 61 emptyVoxel (voxelOf 1 2 3)) ⟨12.375, 0.125, 0.125⟩ (.fin 7) =
    .ok (false, .fin 0) := by
  decide +kernel

/-- **C116, violated.** The queries for the distance and for distance and weight disagree about success in a voxel that was never observed. -/
theorem C116_unobserved_violated : ∃ (l : VLayer (TsdfVoxel Fl)) (pos : Pt), Shaped l ∧
    getNearestDistance tsdfAccess l pos (.fin 7) = .ok (false, .fin 0) ∧
    getNearestDistanceAndWeight tsdfAccess l pos (.fin 7, .fin 7) = .ok (true, .fin 0, .fin 0) :=
  ⟨pair tenth 61 emptyVoxel (voxelOf 1 2 3), ⟨12.375, 0.125, 0.125⟩, pair_shaped _ _ _ _, by decide +kernel, by decide +kernel⟩

/-- **C116.** The weight it gives tells: where the query for distance and weight returns true, the query for the distance gives the same
distance, and returns true exactly if the weight exceeds 10⁻⁶ (TSDF) or is 1 (ESDF, where it is 0 otherwise). -/
theorem C116_weight_tells {pos : Pt} {d w : Fl} (out : Fl × Fl) (d0 : Fl) :
    (∀ l : VLayer (TsdfVoxel Fl), getNearestDistanceAndWeight tsdfAccess l pos out = .ok (true, d, w) →
      getNearestDistance tsdfAccess l pos d0 = .ok (Fl.lt (.fin (rnd64 (1 / 1000000))) w, d)) ∧
    (∀ l : VLayer (EsdfVoxel Fl), getNearestDistanceAndWeight esdfAccess l pos out = .ok (true, d, w) → (w = .fin 0 ∨ w = .fin 1) ∧
      getNearestDistance esdfAccess l pos d0 = .ok (decide (w = .fin 1), d)) := by
  constructor
  · intro l h
    unfold getNearestDistanceAndWeight at h
    unfold getNearestDistance
    obtain ⟨r, hr, h⟩ := Outcome.bind_eq_ok.1 h
    rw [hr]
    cases r with
    | none => exact absurd (congrArg Prod.fst (Outcome.ok.inj h)) (by simp)
    | some x =>
      have e := congrArg Prod.snd (Outcome.ok.inj h)
      have e1 : tsdfAccess.sdf x = d := congrArg Prod.fst e
      have e2 : tsdfAccess.weight x = w := congrArg Prod.snd e
      have ek : rnd64 (1 / 1000000) = Eval.kObserved := by decide +kernel
      rw [ek, ← e1, ← e2]
      rfl
  · intro l h
    unfold getNearestDistanceAndWeight at h
    unfold getNearestDistance
    obtain ⟨r, hr, h⟩ := Outcome.bind_eq_ok.1 h
    rw [hr]
    cases r with
    | none => exact absurd (congrArg Prod.fst (Outcome.ok.inj h)) (by simp)
    | some x =>
      have e := congrArg Prod.snd (Outcome.ok.inj h)
      have e1 : esdfAccess.sdf x = d := congrArg Prod.fst e
      have e2 : esdfAccess.weight x = w := congrArg Prod.snd e
      rw [← e1, ← e2]
      cases ho : x.observed with
      | true =>
        have ew : esdfAccess.weight x = .fin 1 := by
          show (if x.observed then Fl.fin 1 else Fl.fin 0) = _
          rw [ho]
          rfl
        have eo : esdfAccess.obs x = true := ho
        rw [ew]
        refine ⟨Or.inr rfl, ?_⟩
        show Outcome.ok (esdfAccess.obs x, esdfAccess.sdf x) = _
        rw [eo]
        rfl
      | false =>
        have ew : esdfAccess.weight x = .fin 0 := by
          show (if x.observed then Fl.fin 1 else Fl.fin 0) = _
          rw [ho]
          rfl
        have eo : esdfAccess.obs x = false := ho
        rw [ew]
        refine ⟨Or.inl rfl, ?_⟩
        show Outcome.ok (esdfAccess.obs x, esdfAccess.sdf x) = _
        rw [eo]
        rfl

example : getNearestDistanceAndWeight tsdfAccess (pair tenth 61 emptyVoxel (voxelOf 1 2 3)) ⟨12.45, 0.125, 0.125⟩ (.fin 0, .fin 0) =
    .ok (true, .fin 1, .fin 2) := by
  decide +kernel

/-- **C116.** Wherever the interpolating query for the weight of an ESDF layer succeeds, the weight is exactly 1, for the usual two orders of
addition. -/
theorem C116_esdf_weight {l : VLayer (EsdfVoxel Fl)} (sh : Shaped l) (hs : Size l.cfg.voxelSize) (hS : l.cfg.voxelSize ≤ 2 ^ 80) {k : ℕ}
    (hk : k ≤ 10) (hn : l.cfg.vps = 2 ^ k) {pos : Pt} (hX : WithinVoxels l.cfg.voxelSize (2 ^ 18) pos)
    {rows : ℕ → Order} {last : Order} (hrows : ∀ i < 8, rows i = inTurn ∨ rows i = byHalves) (hlast : last = inTurn ∨ last = byHalves)
    {out w : Fl} (h : getInterpWeight rows last esdfAccess l pos out = .ok (true, w)) : w = .fin 1 := by
  obtain ⟨g, o, -, -, -, h4⟩ := query sh hs hS hk hn esdfAccess.obs hX le_rfl
  unfold getInterpWeight at h
  rw [h4] at h
  cases hg : Interp.gather l esdfAccess.obs g Interp.corners with
  | none =>
    rw [hg] at h
    exact absurd (congrArg Prod.fst (Outcome.ok.inj h)) (by simp)
  | some xs =>
    rw [hg] at h
    have hr : interpMember rows last (qF o) (xs.map esdfAccess.weight) = w := congrArg Prod.snd (Outcome.ok.inj h)
    have hall := Interp.gather_inv Interp.corners xs hg
    have : Nonempty (EsdfVoxel Fl) := ⟨(hall ⟨0, 0, 0⟩ (by decide)).choose⟩
    choose! f hf1 hf2 using hall
    have hxs : xs = Interp.corners.map f := by
      have := Interp.gather_some (g := g) (obs := esdfAccess.obs) (l := l) (f := f) Interp.corners fun c hc => ⟨hf1 c hc, hf2 c hc⟩
      rw [hg] at this
      exact Option.some.inj this
    have hv : xs.map esdfAccess.weight = (List.replicate 8 (1 : ℚ)).map .fin := by
      rw [hxs, List.map_map]
      have : Interp.corners.map (esdfAccess.weight ∘ f) = Interp.corners.map fun _ => Fl.fin 1 :=
        List.map_congr_left fun c hcm => by
          show (if (f c).observed then Fl.fin 1 else Fl.fin 0) = _
          have : (f c).observed = true := hf2 c hcm
          rw [this]
          rfl
      rw [this]
      rfl
    rw [hv] at hr
    rw [← hr]
    exact constant_member hrows hlast (by decide +kernel) (by norm_num)

example : getInterpWeight (fun _ => inTurn) byHalves esdfAccess
    (pair tenth 61 ⟨.fin 2, true, false, false, false, ⟨0, 0, 0⟩⟩ ⟨.fin 1, true, false, false, false, ⟨0, 0, 0⟩⟩) ⟨12.375, 0.125, 0.125⟩ (.fin 0) =
    .ok (true, .fin 1) := by
  decide +kernel

/-! ## C117 the interpolated voxel -/

/-- **C117, partial.** (In full: the interpolated voxel is defined everywhere and its members lie between those of the eight voxels;
`C117_undefined_violated`, `C117_colour_violated` and `C117_weight_violated` show that they do not.) Where the distance from the origin and the
side of a block together are at most 4 000 voxels: there is a cell of voxel centres around the position, up to rounding, such that
* if its eight voxels are observed, `getVoxel` succeeds; distance and weight are within the rounding error of the trilinear values, and each
  colour component is less than 2 from its trilinear value, at most the greatest and at least one less than the smallest of the eight;
* if one of them is missing or not observed, it returns false and leaves the output alone. -/
theorem C117_voxel_partial {l : VLayer (TsdfVoxel Fl)} (sh : Shaped l) (hs : Size l.cfg.voxelSize) (hS : l.cfg.voxelSize ≤ 2 ^ 80) {k : ℕ}
    (hk : k ≤ 10) (hn : l.cfg.vps = 2 ^ k) {pos : Pt} {X : ℚ} (hX : WithinVoxels l.cfg.voxelSize X pos) (hX2 : X + 2 ^ k ≤ 4000)
    {rows : ℕ → Order} {last : Order} (hrows : ∀ i < 8, Complete (rows i)) (hlast : Complete last) (out : TsdfVoxel Fl) :
    ∃ g : Idx, NearDualCell l.cfg.voxelSize ((2 * X + 2 * 2 ^ k + 8) / 2 ^ 24) g pos ∧
      (∀ (f : Idx → TsdfVoxel Fl) (D W : ℚ), D ≤ 2 ^ 100 → W ≤ 2 ^ 100 →
        (∀ c, IsCorner c → content l (g + c) = some (f c) ∧
          (∃ d, (f c).distance = .fin d ∧ rnd32 d = d ∧ |d| ≤ D) ∧ tsdfAccess.obs (f c) = true ∧ ∃ w, (f c).weight = .fin w ∧ rnd32 w = w ∧ w ≤ W) →
        ∃ v, getVoxel rows last l true pos out = .ok (true, v) ∧
          (∃ d, v.distance = .fin d ∧ |d - trilinear (fun c => num (f c).distance) (relativeTo l.cfg.voxelSize g pos)| ≤
            D / 2 ^ 14 + 8 * D * ((2 * X + 2 * 2 ^ k + 13) / 2 ^ 24) + 1 / 2 ^ 140) ∧
          (∃ w, v.weight = .fin w ∧ |w - trilinear (fun c => num (f c).weight) (relativeTo l.cfg.voxelSize g pos)| ≤
            W / 2 ^ 14 + 4 * W * ((2 * X + 2 * 2 ^ k + 13) / 2 ^ 24) + 1 / 2 ^ 140) ∧
          ∀ ch ∈ colorChannels, |((ch v.color).toNat : ℚ) - trilinear (fun c => (ch (f c).color).toNat) (relativeTo l.cfg.voxelSize g pos)| < 2 ∧
            ∀ lo hi, (∀ c, IsCorner c → lo ≤ (ch (f c).color).toNat ∧ (ch (f c).color).toNat ≤ hi) →
              lo ≤ (ch v.color).toNat + 1 ∧ (ch v.color).toNat ≤ hi) ∧
      (∀ c, IsCorner c → (content l (g + c)).filter tsdfAccess.obs = none → getVoxel rows last l true pos out = .ok (false, out)) := by
  obtain ⟨-, hN1, hN2⟩ := size_block hs hS hk
  have hX0 : 0 ≤ X := le_trans (abs_nonneg _) hX.1
  obtain ⟨g, o, h1, h2, h3, h4⟩ := query sh hs hS hk hn tsdfAccess.obs hX (by norm_num; linarith)
  have eu : ∀ a : ℚ, u * a = a / 2 ^ 24 := fun a => by rw [u_eq]; ring
  rw [eu] at h1
  rw [eu] at h3
  have small : (2 * X + 2 * 2 ^ k + 13) / 2 ^ 24 ≤ (1 / 2093 : ℚ) := by
    generalize (2 : ℚ) ^ k = N at *
    norm_num at *
    linarith
  have le8 : (2 * X + 2 * 2 ^ k + 8) / 2 ^ 24 ≤ (2 * X + 2 * 2 ^ k + 13 : ℚ) / 2 ^ 24 :=
    div_le_div_of_nonneg_right (by linarith) (by positivity)
  have e0 : 0 ≤ (2 * X + 2 * 2 ^ k + 13 : ℚ) / 2 ^ 24 := by positivity
  refine ⟨g, h1, ?_, ?_⟩
  · intro f D W hD hW hf
    generalize hE : (2 * X + 2 * 2 ^ k + 13 : ℚ) / 2 ^ 24 = E at *
    generalize hT : (2 * X + 2 * 2 ^ k + 8 : ℚ) / 2 ^ 24 = T at *
    have rel : (relativeTo l.cfg.voxelSize g pos).All fun t => -(1 / 15) ≤ t ∧ t ≤ 16 / 15 :=
      ⟨⟨by have := h1.1.1; simp only [relativeTo]; linarith, by have := h1.1.2; simp only [relativeTo]; linarith⟩,
        ⟨by have := h1.2.1.1; simp only [relativeTo]; linarith, by have := h1.2.1.2; simp only [relativeTo]; linarith⟩,
        ⟨by have := h1.2.2.1; simp only [relativeTo]; linarith, by have := h1.2.2.2; simp only [relativeTo]; linarith⟩⟩
    have top : o.x ≤ 1 + 2 * E ∧ o.y ≤ 1 + 2 * E ∧ o.z ≤ 1 + 2 * E := by
      obtain ⟨a1, a2, a3⟩ := h3
      simp only [relativeTo] at a1 a2 a3
      exact ⟨by linarith [(abs_le.1 a1).2, h1.1.2], by linarith [(abs_le.1 a2).2, h1.2.1.2], by linarith [(abs_le.1 a3).2, h1.2.2.2]⟩
    have hg := Interp.gather_some (g := g) (obs := tsdfAccess.obs) (l := l) (f := f) Interp.corners fun c hc =>
      ⟨(hf c (Interp.mem_corner hc)).1, (hf c (Interp.mem_corner hc)).2.2.1⟩
    -- the members
    have hdist : ∀ c, IsCorner c → (f c).distance = .fin (num (f c).distance) ∧ rnd32 (num (f c).distance) = num (f c).distance ∧
        |num (f c).distance| ≤ D ∧ -D ≤ num (f c).distance ∧ num (f c).distance ≤ D := by
      intro c hc
      obtain ⟨d, e1, e2, e3⟩ := (hf c hc).2.1
      rw [e1]
      exact ⟨rfl, e2, e3, (abs_le.1 e3).1, (abs_le.1 e3).2⟩
    have hweight : ∀ c, IsCorner c → (f c).weight = .fin (num (f c).weight) ∧ rnd32 (num (f c).weight) = num (f c).weight ∧
        |num (f c).weight| ≤ W ∧ 0 ≤ num (f c).weight ∧ num (f c).weight ≤ W := by
      intro c hc
      obtain ⟨w, e1, e2, e3⟩ := (hf c hc).2.2.2
      have ho := (hf c hc).2.2.1
      have hw0 : 0 ≤ w := by
        have : Fl.lt (.fin Eval.kObserved) (f c).weight = true := ho
        rw [e1] at this
        have hlt : Eval.kObserved < w := of_decide_eq_true this
        refine le_trans ?_ hlt.le
        unfold Eval.kObserved
        norm_num
      rw [e1]
      exact ⟨rfl, e2, (abs_of_nonneg hw0).trans_le e3, hw0, e3⟩
    have hbyte : ∀ ch : Color → BitVec 8, ∀ c, IsCorner c → rnd32 (((ch (f c).color).toNat : ℕ) : ℚ) = (((ch (f c).color).toNat : ℕ) : ℚ) ∧
        |(((ch (f c).color).toNat : ℕ) : ℚ)| ≤ 255 := by
      intro ch c _
      have hlt := (ch (f c).color).isLt
      have hle : (((ch (f c).color).toNat : ℕ) : ℚ) ≤ 255 := by exact_mod_cast (by omega : (ch (f c).color).toNat ≤ 255)
      constructor
      · have := rnd32_int (n := ((ch (f c).color).toNat : ℤ)) (by rw [abs_of_nonneg (Int.natCast_nonneg _)]; omega)
        push_cast at this
        exact this
      · rw [abs_of_nonneg (Nat.cast_nonneg _)]
        exact hle
    have md : Interp.corners.map (fun c => tsdfAccess.sdf (f c)) = Interp.corners.map fun c => .fin (num (f c).distance) :=
      List.map_congr_left fun c hc => (hdist c (Interp.mem_corner hc)).1
    have mw : Interp.corners.map (fun c => tsdfAccess.weight (f c)) = Interp.corners.map fun c => .fin (num (f c).weight) :=
      List.map_congr_left fun c hc => (hweight c (Interp.mem_corner hc)).1
    obtain ⟨d, hd1, hd2, -⟩ := member_between hrows hlast h2 rel top (by linarith) h3 hD (f := fun c => num (f c).distance) (lo := -D) (hi := D)
      fun c hc => (hdist c hc).2
    obtain ⟨w, hw1, hw2, -⟩ := member_between hrows hlast h2 rel top (by linarith) h3 hW (f := fun c => num (f c).weight) (lo := 0) (hi := W)
      fun c hc => (hweight c hc).2
    -- the colours
    have colour : ∀ ch : Color → BitVec 8, ∃ b : BitVec 8, interpByte rows last (qF o) ch (Interp.corners.map f) = .ok b ∧
        |((b.toNat : ℕ) : ℚ) - trilinear (fun c => ((ch (f c).color).toNat : ℕ)) (relativeTo l.cfg.voxelSize g pos)| < 2 ∧
        ∀ lo hi : ℕ, (∀ c, IsCorner c → lo ≤ (ch (f c).color).toNat ∧ (ch (f c).color).toNat ≤ hi) → lo ≤ b.toNat + 1 ∧ b.toNat ≤ hi := by
      intro ch
      have run : ∀ lo hi : ℕ, hi ≤ 255 → (∀ c, IsCorner c → lo ≤ (ch (f c).color).toNat ∧ (ch (f c).color).toNat ≤ hi) →
          ∃ b : BitVec 8, interpByte rows last (qF o) ch (Interp.corners.map f) = .ok b ∧
            |((b.toNat : ℕ) : ℚ) - trilinear (fun c => ((ch (f c).color).toNat : ℕ)) (relativeTo l.cfg.voxelSize g pos)| < 2 ∧
            lo ≤ b.toNat + 1 ∧ b.toNat ≤ hi := by
        intro lo hi hhi hr
        obtain ⟨r, r1, r2, r3, r4⟩ := member_between hrows hlast h2 rel top (by linarith) h3 (D := 255) (by norm_num)
          (f := fun c => (((ch (f c).color).toNat : ℕ) : ℚ)) (lo := lo) (hi := hi) fun c hc =>
            ⟨(hbyte ch c hc).1, (hbyte ch c hc).2, by exact_mod_cast (hr c hc).1, by exact_mod_cast (hr c hc).2⟩
        have hh : (hi : ℚ) ≤ 255 := by exact_mod_cast hhi
        have hl0 : (0 : ℚ) ≤ lo := Nat.cast_nonneg _
        have hlh : (lo : ℚ) ≤ hi := by
          have := hr ⟨0, 0, 0⟩ (by decide)
          exact_mod_cast this.1.trans this.2
        have hsp : 4 * ((hi : ℚ) - lo) * (2 * E) ≤ 2040 / 2093 := by
          have := mul_le_mul (show (hi : ℚ) - lo ≤ 255 by linarith) small e0 (by norm_num)
          linarith
        obtain ⟨b, b1, b2, b3, b4⟩ := byte_near (lo := (lo : ℚ)) (hi := (hi : ℚ)) (e := 255 / 2 ^ 14 + 4 * ((hi : ℚ) - lo) * (2 * E) + 1 / 2 ^ 140) rfl rfl hhi
          (by
            have : (1 : ℚ) / 2 ^ 140 ≤ 1 / 1000 := by norm_num
            linarith) (r2.trans (by
            have := mul_nonneg (show (0 : ℚ) ≤ (hi : ℚ) - lo by linarith) e0
            linarith)) r3 r4
        refine ⟨b, ?_, b2, b3, b4⟩
        unfold interpByte
        rw [List.map_map, ← b1, ← r1]
        rfl
      obtain ⟨b, b1, b2, -, -⟩ := run 0 255 le_rfl fun c _ => ⟨Nat.zero_le _, by have := (ch (f c).color).isLt; omega⟩
      refine ⟨b, b1, b2, ?_⟩
      intro lo hi hr
      obtain ⟨b', c1, -, c3, c4⟩ := run lo (min hi 255) (min_le_right _ _) fun c hc =>
        ⟨(hr c hc).1, le_min (hr c hc).2 (by have := (ch (f c).color).isLt; omega)⟩
      have : b' = b := Outcome.ok.inj (c1.symm.trans b1)
      subst this
      exact ⟨c3, c4.trans (min_le_left _ _)⟩
    obtain ⟨r, r1, r2⟩ := colour Color.r
    obtain ⟨g', g1, g2⟩ := colour Color.g
    obtain ⟨b, b1, b2⟩ := colour Color.b
    obtain ⟨a, a1, a2⟩ := colour Color.a
    refine ⟨⟨.fin d, .fin w, ⟨r, g', b, a⟩⟩, ?_, ⟨d, rfl, by linarith⟩, ⟨w, rfl, by linarith⟩, ?_⟩
    · show getInterpVoxel rows last l pos out = _
      unfold getInterpVoxel
      rw [h4, hg]
      show (interpVoxel rows last (qF o) (Interp.corners.map f) >>= fun v => pure (true, v)) = _
      have : interpVoxel rows last (qF o) (Interp.corners.map f) = .ok ⟨.fin d, .fin w, ⟨r, g', b, a⟩⟩ := by
        unfold interpVoxel
        rw [r1, g1, b1, a1, List.map_map, List.map_map]
        simp only [Outcome.bind_ok, Outcome.pure_eq]
        rw [← hd1, ← hw1, ← md, ← mw]
        rfl
      rw [this]
      rfl
    · intro ch hch
      simp only [colorChannels, List.mem_cons, List.not_mem_nil, or_false] at hch
      rcases hch with rfl | rfl | rfl | rfl
      · exact r2
      · exact g2
      · exact b2
      · exact a2
  · intro c hc hcn
    show getInterpVoxel rows last l pos out = _
    unfold getInterpVoxel
    rw [h4, Interp.gather_none hcn _ (Interp.corner_mem hc)]
    rfl

/-- 0.35 as a `float`. -/
def size35 : ℚ := rnd32 (7 / 20)

theorem size35_size : Size size35 := ⟨by decide +kernel, by decide +kernel, by decide +kernel⟩

theorem pair_content {s : ℚ} {i : ℤ} {x y z : V} {g : Idx} (h : content (pair s i x y) g = some z) : z = x ∨ z = y := by
  unfold content at h
  obtain ⟨b, hb, hbx⟩ := Option.bind_eq_some_iff.1 h
  have hm := List.mem_of_getElem? hbx
  have := Layer.lookup_some_mem hb
  simp only [pair, List.mem_cons, Prod.mk.injEq, List.not_mem_nil, or_false] at this
  rcases this with h | h <;> rw [h.2] at hm <;> simp only [sameBlock, List.mem_cons, List.not_mem_nil, or_false, or_self] at hm
  · exact Or.inl hm
  · exact Or.inr hm

example : Shaped (pair tenth 61 (voxelOf 0 1 10) (voxelOf 1 2 30)) ∧ WithinVoxels tenth 125 ⟨12.375, 0.125, 0.125⟩ ∧
    (∀ c ∈ Interp.corners, content (pair tenth 61 (voxelOf 0 1 10) (voxelOf 1 2 30)) (⟨123, 0, 0⟩ + c) = some (if c.x = 0 then voxelOf 0 1 10 else voxelOf 1 2 30)) ∧
    tsdfAccess.obs (voxelOf 0 1 10) = true ∧ rnd32 2 = 2 :=
  ⟨pair_shaped _ _ _ _, ⟨by decide +kernel, by decide +kernel, by decide +kernel⟩, by decide +kernel, by decide +kernel, by decide +kernel⟩

/-- **C117, violated.** The interpolated colour can be darker than all eight voxels: from grays of 255 and 100 at x ≈ 12.45 the result is 99. -/
theorem C117_colour_violated : ∃ (l : VLayer (TsdfVoxel Fl)) (pos : Pt) (v : TsdfVoxel Fl), Shaped l ∧ WithinVoxels l.cfg.voxelSize 125 pos ∧
    (∀ g x, content l g = some x → 100 ≤ x.color.r.toNat) ∧
    getVoxel (fun _ => inTurn) byHalves l true pos emptyVoxel = .ok (true, v) ∧ v.color.r.toNat = 99 := by
  refine ⟨pair tenth 61 (voxelOf 0 1 255) (voxelOf 0 1 100), ⟨13054771 / 1048576, 1 / 8, 1 / 8⟩, voxelOf 0 1 99, pair_shaped _ _ _ _,
    ⟨by decide +kernel, by decide +kernel, by decide +kernel⟩, ?_, by decide +kernel, by decide⟩
  intro g x hx
  rcases pair_content hx with rfl | rfl <;> decide

/-- **C117, violated.** The interpolated weight of observed voxels can be negative: from weights 10 000 and 0.01. A caller that tests the voxel
it got with `isObservedVoxel` will discard it, although the query succeeded. -/
theorem C117_weight_violated : ∃ (l : VLayer (TsdfVoxel Fl)) (pos : Pt) (v : TsdfVoxel Fl), Shaped l ∧ WithinVoxels l.cfg.voxelSize 125 pos ∧
    (∀ g x, content l g = some x → tsdfAccess.obs x = true) ∧
    getVoxel (fun _ => inTurn) byHalves l true pos emptyVoxel = .ok (true, v) ∧ Fl.lt v.weight (.fin 0) = true ∧ tsdfAccess.obs v = false := by
  refine ⟨pair tenth 61 (voxelOf 0 10000 0) (voxelOf 0 (rnd32 (1 / 100)) 0), ⟨13054771 / 1048576, 1 / 8, 1 / 8⟩, ⟨.fin 0, .fin (-29 / 1024), ⟨0, 0, 0, 255⟩⟩, pair_shaped _ _ _ _,
    ⟨by decide +kernel, by decide +kernel, by decide +kernel⟩, ?_, by decide +kernel, by decide +kernel, by decide +kernel⟩
  intro g x hx
  rcases pair_content hx with rfl | rfl <;> decide +kernel

/-- **C117, violated.** Far from the origin the conversion of the colour is undefined: with voxels of 0.35 m, at x ≈ 61 085 m the computed offset
is 1.0045, and from the grays 0 and 255 the interpolated value is 256.1. -/
theorem C117_undefined_violated : ∃ (l : VLayer (TsdfVoxel Fl)) (pos : Pt), Shaped l ∧ Size l.cfg.voxelSize ∧ WithinVoxels l.cfg.voxelSize (2 ^ 18) pos ∧
    (∀ g x, content l g = some x → tsdfAccess.obs x = true) ∧
    getDistance (fun _ => inTurn) byHalves tsdfAccess l true pos (.fin 7) = .ok (true, .fin 0) ∧
    getVoxel (fun _ => inTurn) byHalves l true pos emptyVoxel = .ub := by
  refine ⟨pair size35 87263 (voxelOf 0 1 0) (voxelOf 0 1 255), ⟨61084.97265625, 1 / 4, 1 / 4⟩, pair_shaped _ _ _ _, size35_size,
    ⟨by decide +kernel, by decide +kernel, by decide +kernel⟩, ?_, by decide +kernel, by decide +kernel⟩
  intro g x hx
  rcases pair_content hx with rfl | rfl <;> decide +kernel

end Vox.InterpF
