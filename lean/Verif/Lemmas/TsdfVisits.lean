/-
The voxels of a ray of the TSDF integrators in exact arithmetic.
-/
import Verif.Lemmas.TsdfRay
import Verif.Spec.TsdfVisits

namespace Vox.TsdfScan

open Layer Grid Tsdf Ray Spec

theorem nodup_of_unitSteps {d : Idx} (hd : d.x ≠ 0 ∧ d.y ≠ 0 ∧ d.z ≠ 0) {l : List Idx} (h : List.IsChain (UnitStep d) l) : l.Nodup := by
  have hlt : List.IsChain (fun a b : Idx => d.x * a.x + d.y * a.y + d.z * a.z < d.x * b.x + d.y * b.y + d.z * b.z) l := by
    refine h.imp fun a b hab => ?_
    have key : ∀ c : ℤ, c ≠ 0 → 0 < c * c := fun c hc => mul_self_pos.2 hc
    rcases hab with rfl | rfl | rfl
    · have := key _ hd.1; simp only; linarith
    · have := key _ hd.2.1; simp only; linarith
    · have := key _ hd.2.2; simp only; linarith
  have : IsTrans Idx (fun a b : Idx => d.x * a.x + d.y * a.y + d.z * a.z < d.x * b.x + d.y * b.y + d.z * b.z) :=
    ⟨fun a b c h1 h2 => lt_trans h1 h2⟩
  exact (List.isChain_iff_pairwise.1 hlt).imp fun {a b} hab => by
    rintro rfl
    exact lt_irrefl _ hab

theorem wellInside_scaled {s : ℚ} (hs : 0 < s) {g : Idx} {p : Pt} (h : WellInside s g p) : ClearlyInside g (scaled s p) := by
  have key : ∀ (c : ℤ) (w : ℚ), c * s < w ∧ w + s / 1000000 < (c + 1) * s → (c : ℚ) < w * (1 / s) ∧ w * (1 / s) + 1 / 1000000 < c + 1 := by
    rintro c w ⟨h1, h2⟩
    have e : w = (w * (1 / s)) * s := by field_simp
    generalize w * (1 / s) = y at e
    subst e
    exact ⟨lt_of_mul_lt_mul_right h1 hs.le, lt_of_mul_lt_mul_right (by linarith : (y + 1 / 1000000) * s < (c + 1) * s) hs.le⟩
  exact ⟨key _ _ h.1, key _ _ h.2.1, key _ _ h.2.2⟩

theorem unitCell_scaled {s : ℚ} (hs : 0 < s) {g : Idx} {p : Pt} : InUnitCell g (scaled s p) ↔ InCube s g p := by
  have key : ∀ (c : ℤ) (w : ℚ), ((c : ℚ) ≤ w * (1 / s) ∧ w * (1 / s) ≤ c + 1) ↔ (c * s ≤ w ∧ w ≤ (c + 1) * s) := by
    intro c w
    have e : w = (w * (1 / s)) * s := by field_simp
    generalize w * (1 / s) = y at e
    subst e
    exact ⟨fun h => ⟨mul_le_mul_of_nonneg_right h.1 hs.le, mul_le_mul_of_nonneg_right h.2 hs.le⟩,
      fun h => ⟨le_of_mul_le_mul_right h.1 hs, le_of_mul_le_mul_right h.2 hs⟩⟩
  exact and_congr (key _ _) (and_congr (key _ _) (key _ _))

theorem near_inRange {g : Idx} {p : Pt} (hg : SmallIndex g) (h : ClearlyInside g p) : InRange p := by
  have key : ∀ (c : ℤ) (w : ℚ), |c| ≤ 2 ^ 29 → (c : ℚ) < w ∧ w + 1 / 1000000 < c + 1 → -2 ^ 62 ≤ w ∧ w ≤ 2 ^ 62 := by
    rintro c w hc ⟨h1, h2⟩
    obtain ⟨a, b⟩ := abs_le.1 hc
    have a' : (-2 ^ 29 : ℚ) ≤ c := by exact_mod_cast a
    have b' : (c : ℚ) ≤ 2 ^ 29 := by exact_mod_cast b
    norm_num at *
    constructor <;> linarith
  exact ⟨key _ _ hg.1 h.1, key _ _ hg.2.1 h.2.1, key _ _ hg.2.2 h.2.2⟩

theorem near_l1dist {g h : Idx} (hg : SmallIndex g) (hh : SmallIndex h) : l1dist g h + 1 < 2 ^ 32 := by
  obtain ⟨a, b, c⟩ := hg
  obtain ⟨d, e, f⟩ := hh
  rw [abs_le] at a b c d e f
  unfold l1dist
  omega

theorem cast_between {sq : ℚ → Fl} {s L : ℚ} (hs : 0 < s) (hL : 0 < L) {o q : Pt} (hx : q.x ≠ o.x) (hy : q.y ≠ o.y) (hz : q.z ≠ o.z)
    {a b : ℚ} {S E : Idx} (hS : WellInside s S (pointAt o q L a)) (hE : WellInside s E (pointAt o q L b)) (nS : SmallIndex S) (nE : SmallIndex E) :
    ∃ gs, castAll (Arith.exact sq) ((scaled s (pointAt o q L a)).map .fin) ((scaled s (pointAt o q L b)).map .fin) = .ok gs ∧
      gs.head? = some S ∧ gs.getLast? = some E ∧ gs.Nodup ∧
      (∀ g ∈ gs, ∃ u, 0 ≤ u ∧ u ≤ 1 ∧ InCube s g (pointAt o q L (a + u * (b - a)))) ∧
      (∀ u, 0 ≤ u → u ≤ 1 → ∃ g ∈ gs, InCube s g (pointAt o q L (a + u * (b - a)))) := by
  have cS := wellInside_scaled hs hS
  have cE := wellInside_scaled hs hE
  have rS := near_inRange nS cS
  have rE := near_inRange nE cE
  have gS := gridIndexScaled_of_insideLow (ClearlyInside.low cS)
  have gE := gridIndexScaled_of_insideLow (ClearlyInside.low cE)
  have hlen := near_l1dist nS nE
  by_cases hab : a = b
  · subst hab
    obtain rfl : S = E := gS.symm.trans gE
    have h0 : l1dist S S = 0 := by simp [l1dist]
    have hc := castRay_exact (sq := sq) rS rE (by rw [gS]; exact hlen) (n := 2) (by rw [gS, h0])
    rw [gS, h0] at hc
    have hall := castAll_exact rS rE (by rw [gS]; exact hlen) (n := 2) (by rw [gS, h0]) hc
    have hcube : InCube s S (pointAt o q L a) := by
      obtain ⟨⟨x1, x2⟩, ⟨y1, y2⟩, z1, z2⟩ := hS
      have : 0 < s / 1000000 := by positivity
      exact ⟨⟨x1.le, by linarith⟩, ⟨y1.le, by linarith⟩, z1.le, by linarith⟩
    refine ⟨_, hall, ?_, ?_, ?_, ?_, ?_⟩
    · show some (gridIndexScaled _) = _
      rw [gS]
    · show some (gridIndexScaled _) = _
      rw [gS]
    · exact List.nodup_singleton _
    · intro g hg
      obtain rfl : g = gridIndexScaled _ := List.mem_singleton.1 hg
      refine ⟨0, le_rfl, by norm_num, ?_⟩
      rw [gS]
      simpa using hcube
    · intro u _ _
      refine ⟨_, List.mem_singleton_self _, ?_⟩
      show InCube s (gridIndexScaled _) _
      rw [gS]
      simpa using hcube
  · have hne : ∀ (i j : ℚ), i ≠ j → (j + b / L * (i - j)) * (1 / s) ≠ (j + a / L * (i - j)) * (1 / s) := by
      intro i j hij hc
      have h1 := mul_right_cancel₀ (by positivity : (1 / s) ≠ 0) hc
      have h2 : (b - a) * (i - j) = 0 := by
        have : b / L * (i - j) = a / L * (i - j) := by linarith
        have e : (b - a) * (i - j) = (b / L * (i - j) - a / L * (i - j)) * L := by field_simp
        rw [e, this, sub_self, zero_mul]
      rcases mul_eq_zero.1 h2 with h | h
      · exact hab (by linarith)
      · exact hij (by linarith)
    have nx : (scaled s (pointAt o q L b)).x ≠ (scaled s (pointAt o q L a)).x := hne _ _ hx
    have ny : (scaled s (pointAt o q L b)).y ≠ (scaled s (pointAt o q L a)).y := hne _ _ hy
    have nz : (scaled s (pointAt o q L b)).z ≠ (scaled s (pointAt o q L a)).z := hne _ _ hz
    obtain ⟨gs, h1, h2, h3, h4, h5⟩ := C34_cells_partial sq _ _ S E rS rE (ClearlyInside.low cS) cE nx ny nz hlen _ le_rfl
    have hall := castAll_exact rS rE (by rw [gS, gE]; exact hlen) (n := l1dist S E + 2) (by rw [gS, gE]) h1
    have hseg : ∀ u, segPoint (scaled s (pointAt o q L a)) (scaled s (pointAt o q L b)) u = scaled s (pointAt o q L (a + u * (b - a))) := by
      intro u
      ext <;> simp only [segPoint, scaled, pointAt, Vec3.map_x, Vec3.map_y, Vec3.map_z] <;> ring
    refine ⟨gs, hall, h2, h3, ?_, ?_, ?_⟩
    · have hsub : ∀ x y : ℚ, x ≠ y → (Arith.exact sq).sub (.fin x) (.fin y) ≠ .fin 0 := by
        intro x y hxy
        rw [exact_sub]
        intro h
        exact hxy (by linarith [Fl.fin.inj h])
      obtain ⟨l, d, e1, -, -, dx, dy, dz, hch⟩ := C33_unit_steps_partial (Arith.exact sq) ((scaled s (pointAt o q L a)).map .fin)
        ((scaled s (pointAt o q L b)).map .fin) S E (gS ▸ gridFl_exact rS) (gE ▸ gridFl_exact rE) hlen (hsub _ _ nx) (hsub _ _ ny) (hsub _ _ nz) _ le_rfl
      rw [h1] at e1
      obtain rfl := Option.some.inj (Outcome.ok.inj e1)
      refine nodup_of_unitSteps ⟨?_, ?_, ?_⟩ hch
      · rw [dx]; split_ifs <;> decide
      · rw [dy]; split_ifs <;> decide
      · rw [dz]; split_ifs <;> decide
    · intro g hg
      obtain ⟨u, u0, u1, hu⟩ := h4 g hg
      rw [hseg, unitCell_scaled hs] at hu
      exact ⟨u, u0, u1, hu⟩
    · intro u u0 u1
      obtain ⟨g, hg, hu⟩ := h5 u u0 u1
      rw [hseg, unitCell_scaled hs] at hu
      exact ⟨g, hg, hu⟩

theorem traverses_of_forward {s L : ℚ} {o q : Pt} {a b : ℚ} (hab : a ≤ b) {gs : List Idx} (hn : gs.Nodup)
    (h1 : ∀ g ∈ gs, ∃ u, 0 ≤ u ∧ u ≤ 1 ∧ InCube s g (pointAt o q L (a + u * (b - a))))
    (h2 : ∀ u, 0 ≤ u → u ≤ 1 → ∃ g ∈ gs, InCube s g (pointAt o q L (a + u * (b - a)))) : Traverses s o q L a b gs := by
  refine ⟨hn, fun g hg => ?_, fun t ta tb => ?_⟩
  · obtain ⟨u, u0, u1, hu⟩ := h1 g hg
    exact ⟨_, by nlinarith, by nlinarith, hu⟩
  · rcases eq_or_lt_of_le hab with rfl | hlt
    · obtain ⟨g, hg, h⟩ := h2 0 le_rfl (by norm_num)
      rw [show a + 0 * (a - a) = t by linarith] at h
      exact ⟨g, hg, h⟩
    · have hp : 0 < b - a := by linarith
      obtain ⟨g, hg, h⟩ := h2 ((t - a) / (b - a)) (div_nonneg (by linarith) hp.le) ((div_le_one hp).2 (by linarith))
      rw [show a + (t - a) / (b - a) * (b - a) = t by field_simp; ring] at h
      exact ⟨g, hg, h⟩

theorem traverses_of_backward {s L : ℚ} {o q : Pt} {a b : ℚ} (hab : a ≤ b) {gs : List Idx} (hn : gs.Nodup)
    (h1 : ∀ g ∈ gs, ∃ u, 0 ≤ u ∧ u ≤ 1 ∧ InCube s g (pointAt o q L (b + u * (a - b))))
    (h2 : ∀ u, 0 ≤ u → u ≤ 1 → ∃ g ∈ gs, InCube s g (pointAt o q L (b + u * (a - b)))) : Traverses s o q L a b gs := by
  refine traverses_of_forward hab hn (fun g hg => ?_) fun u u0 u1 => ?_
  · obtain ⟨u, u0, u1, hu⟩ := h1 g hg
    refine ⟨1 - u, by linarith, by linarith, ?_⟩
    rw [show a + (1 - u) * (b - a) = b + u * (a - b) by ring]
    exact hu
  · obtain ⟨g, hg, hu⟩ := h2 (1 - u) (by linarith) (by linarith)
    rw [show b + (1 - u) * (a - b) = a + u * (b - a) by ring] at hu
    exact ⟨g, hg, hu⟩

theorem exact_min (a b : ℚ) : Fl.stdMin (.fin a) (.fin b) = .fin (min a b) := by
  unfold Fl.stdMin
  rw [lt_fin]
  by_cases h : b < a
  · simp [h, min_eq_right h.le]
  · simp [h, min_eq_left (not_lt.1 h)]

theorem exact_max (a b : ℚ) : Fl.stdMax (.fin a) (.fin b) = .fin (max a b) := by
  unfold Fl.stdMax
  rw [lt_fin]
  by_cases h : a < b
  · simp [h, max_eq_right h.le]
  · simp [h, max_eq_left (not_lt.1 h)]

theorem rayEnds_span {sq : ℚ → Fl} {P : Params} {T R L : ℚ} (hT : P.tsdf.truncation = .fin T) (hR : P.tsdf.maxRay = .fin R) {o q : Pt} (hL : 0 < L)
    (hLL : L * L = dist2 o q) (hsq : sq (L * L) = .fin L) (clearing : Bool) :
    rayEnds (Arith.exact sq) P (o.map .fin) (q.map .fin) clearing =
      ((pointAt o q L (span clearing P.carving L T R).1).map .fin, (pointAt o q L (span clearing P.carving L T R).2).map .fin) := by
  have hpos : 0 < L * L := by positivity
  have hd : (Arith.exact sq).dot ((Arith.exact sq).vsub (q.map .fin) (o.map .fin)) ((Arith.exact sq).vsub (q.map .fin) (o.map .fin)) =
      .fin (L * L) := by
    simp only [Arith.vsub, Arith.dot, Vec3.map₂_x, Vec3.map₂_y, Vec3.map₂_z, Vec3.map_x, Vec3.map_y, Vec3.map_z,
      exact_sub, exact_mul, exact_add, hLL, dist2]
  have hroot : (Arith.exact sq).sqrtFl (.fin (L * L)) = .fin L := by
    simp only [Arith.sqrtFl, if_pos hpos.le]
    exact hsq
  have hn : (Arith.exact sq).norm ((Arith.exact sq).vsub (q.map .fin) (o.map .fin)) = .fin L := by
    unfold Arith.norm
    rw [hd, hroot]
  have hu : Occ.normalized (Arith.exact sq) ((Arith.exact sq).vsub (q.map .fin) (o.map .fin)) = (dirTo o q L).map .fin := by
    unfold Occ.normalized
    rw [hd, if_pos (by simpa [Fl.lt] using hL.ne'), hroot]
    simp only [Arith.vdiv, Arith.vsub, Vec3.map, Vec3.map₂, exact_sub, exact_div sq hL.ne', dirTo]
  have h0 : pointAt o q L 0 = o := by ext <;> simp [pointAt]
  have hadd : ∀ t, (Arith.exact sq).vadd (o.map .fin) ((Arith.exact sq).vscale ((dirTo o q L).map .fin) (.fin t)) = (pointAt o q L t).map .fin := by
    intro t
    ext <;> simp only [Arith.vadd, Arith.vscale, Vec3.map, Vec3.map₂, dirTo, pointAt, exact_add, exact_mul, Fl.fin.injEq] <;> ring
  have haddq : (Arith.exact sq).vadd (q.map .fin) ((Arith.exact sq).vscale ((dirTo o q L).map .fin) (.fin T)) = (pointAt o q L (L + T)).map .fin := by
    ext <;> simp only [Arith.vadd, Arith.vscale, Vec3.map, Vec3.map₂, dirTo, pointAt, exact_add, exact_mul, Fl.fin.injEq] <;> field_simp <;> ring
  have hsubq : (Arith.exact sq).vsub (q.map .fin) ((Arith.exact sq).vscale ((dirTo o q L).map .fin) (.fin T)) = (pointAt o q L (L - T)).map .fin := by
    ext <;> simp only [Arith.vsub, Arith.vscale, Vec3.map, Vec3.map₂, dirTo, pointAt, exact_sub, exact_mul, Fl.fin.injEq] <;> field_simp <;> ring
  unfold rayEnds
  simp only [hu, hn, hT, hR, exact_sub, exact_max, exact_min, hadd, haddq, hsubq]
  cases clearing <;> cases P.carving <;> simp [span, h0]

theorem span_le {clearing carving : Bool} {L T R : ℚ} (hL : 0 < L) (hT : 0 ≤ T) (hR : 0 ≤ R) :
    (span clearing carving L T R).1 ≤ (span clearing carving L T R).2 := by
  cases clearing <;> cases carving <;> simp only [span]
  · linarith
  · linarith
  · exact le_rfl
  · exact le_min (le_max_right _ _) hR

/-- The voxels of a ray. -/
theorem rayVoxels_traverse {sq : ℚ → Fl} {P : Params} {s T R L : ℚ} (hs : 0 < s) (hT : P.tsdf.truncation = .fin T) (hT0 : 0 ≤ T)
    (hR : P.tsdf.maxRay = .fin R) (hR0 : 0 ≤ R) {o q : Pt} (hL : 0 < L) (hLL : L * L = dist2 o q) (hsq : sq (L * L) = .fin L)
    (hx : q.x ≠ o.x) (hy : q.y ≠ o.y) (hz : q.z ≠ o.z) (clearing fromOrigin : Bool) {S E : Idx}
    (hS : WellInside s S (pointAt o q L (span clearing P.carving L T R).1)) (hE : WellInside s E (pointAt o q L (span clearing P.carving L T R).2))
    (nS : SmallIndex S) (nE : SmallIndex E) :
    ∃ gs, rayVoxels (Arith.exact sq) P s (o.map .fin) (q.map .fin) clearing fromOrigin = .ok gs ∧
      gs.head? = some (if fromOrigin then S else E) ∧ gs.getLast? = some (if fromOrigin then E else S) ∧
      Traverses s o q L (span clearing P.carving L T R).1 (span clearing P.carving L T R).2 gs := by
  unfold rayVoxels
  rw [rayEnds_span hT hR hL hLL hsq clearing]
  simp only [vscale_exact hs]
  have hab := span_le (clearing := clearing) (carving := P.carving) (R := R) hL hT0 hR0
  cases fromOrigin
  · obtain ⟨gs, h1, h2, h3, h4, h5, h6⟩ := cast_between (sq := sq) hs hL hx hy hz hE hS nE nS
    exact ⟨gs, h1, h2, h3, traverses_of_backward hab h4 h5 h6⟩
  · obtain ⟨gs, h1, h2, h3, h4, h5, h6⟩ := cast_between (sq := sq) hs hL hx hy hz hS hE nS nE
    exact ⟨gs, h1, h2, h3, traverses_of_forward hab h4 h5 h6⟩

theorem visitOf_observes {sq : ℚ → Fl} {s : ℚ} (o q : Pt) (c : Color) (w : ℚ) (g : Idx) :
    Observes s o q c w (visitOf (Arith.exact sq) s (o.map .fin) (q.map .fin) c (.fin w) g) := by
  refine ⟨rfl, rfl, rfl, rfl, ?_⟩
  ext <;> simp [visitOf, centerFl, Vec3.map, Arith.exact, Arith.mul, Arith.add]

end Vox.TsdfScan
