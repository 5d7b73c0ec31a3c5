/-
What the open-set loop leaves after a batch update from a TSDF layer.
-/
import Verif.Lemmas.EsdfVisit
import Verif.Lemmas.EsdfCopy
import Verif.Spec.EsdfTsdf

namespace Vox.Esdf

open Layer Grid Spec

variable {A : Flt} {cfg : Config} {L : Limits}

/-! ### Neighbours -/

theorem mem_neighborTable {o : Idx} (h : IsNeighborOffset o) : (o, unitLength o) ∈ neighborTable := by
  obtain ⟨⟨x, y, z⟩, h0⟩ := h
  have key : ∀ x ∈ ([-1, 0, 1] : List ℤ), ∀ y ∈ ([-1, 0, 1] : List ℤ), ∀ z ∈ ([-1, 0, 1] : List ℤ), (⟨x, y, z⟩ : Idx) ≠ ⟨0, 0, 0⟩ →
      ((⟨x, y, z⟩ : Idx), unitLength ⟨x, y, z⟩) ∈ neighborTable := by decide +kernel
  have m : ∀ c : ℤ, -1 ≤ c ∧ c ≤ 1 → c ∈ ([-1, 0, 1] : List ℤ) := by
    intro c hc
    have : c = -1 ∨ c = 0 ∨ c = 1 := by omega
    simpa using this
  exact key o.x (m _ x) o.y (m _ y) o.z (m _ z) h0

theorem table_spec {e : Idx × ℚ} (h : e ∈ neighborTable) : IsNeighborOffset e.1 ∧ e.2 = unitLength e.1 := by
  have key : ∀ e ∈ neighborTable, (e.1.All (fun c => -1 ≤ c ∧ c ≤ 1) ∧ e.1 ≠ 0) ∧ e.2 = unitLength e.1 := by decide +kernel
  exact key e h

theorem neighbor_ne {g o : Idx} (ho : IsNeighborOffset o) : g + o ≠ g := by
  intro e0
  apply ho.2
  have hx := congrArg Vec3.x e0
  have hy := congrArg Vec3.y e0
  have hz := congrArg Vec3.z e0
  simp only [Vec3.add_x, Vec3.add_y, Vec3.add_z] at hx hy hz
  ext
  · show o.x = 0; omega
  · show o.y = 0; omega
  · show o.z = 0; omega

theorem neighbor_cancel {g o o' : Idx} (h : g + o = g + o') : o = o' := by
  have hx := congrArg Vec3.x h
  have hy := congrArg Vec3.y h
  have hz := congrArg Vec3.z h
  simp only [Vec3.add_x, Vec3.add_y, Vec3.add_z] at hx hy hz
  ext <;> omega

/-! ### One relaxation between voxels of the same side -/

theorem OnSide.sign {out : Bool} {t : ℚ} (h : OnSide out t) : t = if out then |t| else -|t| := by
  cases out
  · have : t ≤ 0 := h
    simp [abs_of_nonpos this]
  · have : 0 < t := h
    simp [abs_of_pos this]

/-- With the same sign the distance grows in magnitude. -/
theorem relax_same {u : ℚ} (R : Rounding A u) {out : Bool} {v n d : ℚ} (hv : OnSide out v) (hn : OnSide out n) :
    relaxDistance A cfg v n d =
      if A.rnd (A.rnd (|v| + d) + cfg.minDiff) < |n| then some (if out then A.rnd (|v| + d) else -A.rnd (|v| + d)) else none := by
  unfold relaxDistance
  cases out
  · have hv' : v ≤ 0 := hv
    have hn' : n ≤ 0 := hn
    rw [if_neg (by rintro ⟨h, -⟩; linarith), if_pos ⟨hv', hn'⟩]
    have e1 : A.rnd (v - d) = -A.rnd (|v| + d) := by
      rw [← R.odd, abs_of_nonpos hv']
      congr 1
      ring
    have e2 : A.rnd (A.rnd (v - d) - cfg.minDiff) = -A.rnd (A.rnd (|v| + d) + cfg.minDiff) := by
      rw [← R.odd, e1]
      congr 1
      ring
    rw [e2, e1, abs_of_nonpos hn']
    have : n < -A.rnd (A.rnd (|v| + d) + cfg.minDiff) ↔ A.rnd (A.rnd (|v| + d) + cfg.minDiff) < -n := by
      constructor <;> intro h <;> linarith
    simp only [this, Bool.false_eq_true, if_false]
  · have hv' : 0 < v := hv
    have hn' : 0 < n := hn
    rw [if_pos ⟨hv', hn'⟩, abs_of_pos hv', abs_of_pos hn']
    simp

/-! ### The invariant -/

/-- The view of the configuration. -/
def viewOf (cfg : Config) : SurfaceView := ⟨cfg.minWeight, cfg.minDistance, cfg.addOccupiedCrust⟩

/-- The parent of a voxel at magnitude `x` is a neighbour on the same side from which the voxel is reached. -/
def ParentOf (A : Flt) (cfg : Config) (size : ℚ) (tsdf : VLayer (TsdfVoxel ℚ)) (c : Idx → Option EVoxel) (out : Bool) (g p : Idx) (x : ℚ) : Prop :=
  IsNeighborOffset p ∧ (FreeOn (viewOf cfg) tsdf out (g + p) ∨ ∃ t, InBand (viewOf cfg) tsdf (g + p) t ∧ OnSide out t) ∧
    ∃ w, c (g + p) = some w ∧ A.rnd (|w.distance| + A.rnd (unitLength p * size)) ≤ x

/-- Content `c` and queue `es`; the neighbours in `pend` are still to be visited. -/
structure Inv (A : Flt) (cfg : Config) (size : ℚ) (tsdf : VLayer (TsdfVoxel ℚ)) (pend : Idx → Idx → Prop) (c : Idx → Option EVoxel)
    (es : List (ℕ × Idx)) : Prop where
  band : ∀ g t, InBand (viewOf cfg) tsdf g t → ∃ q, c g = some ⟨t, true, false, q, true, 0⟩
  free : ∀ out g, FreeOn (viewOf cfg) tsdf out g → ∃ d h q p, c g = some ⟨d, true, h, q, false, p⟩ ∧ OnSide out d ∧ |d| ≤ cfg.defaultDistance ∧
    ((|d| = cfg.defaultDistance ∧ p = 0) ∨
      (SurfacePath A.rnd size cfg.maxDistance 0 (viewOf cfg) tsdf out g |d| ∧ ParentOf A cfg size tsdf c out g p |d|))
  known : ∀ g v, c g = some v → v.observed = true → (∃ t, InBand (viewOf cfg) tsdf g t) ∨ ∃ out, FreeOn (viewOf cfg) tsdf out g
  flag : ∀ g v, c g = some v → v.inQueue = true → ∃ e ∈ es, e.2 = g
  relaxed : ∀ g v, c g = some v → v.observed = true → |v.distance| < cfg.maxDistance → (∀ e ∈ es, e.2 ≠ g) →
    ∀ o n, IsNeighborOffset o → ¬ pend g o → c (g + o) = some n → n.observed = true → n.fixed = false →
      |n.distance| ≤ A.rnd (A.rnd (|v.distance| + A.rnd (unitLength o * size)) + cfg.minDiff)

section
variable {size : ℚ} {tsdf : VLayer (TsdfVoxel ℚ)} {pend pend' : Idx → Idx → Prop} {c c' : Idx → Option EVoxel} {es : List (ℕ × Idx)}

theorem skipped_iff {v : EVoxel} : Skipped cfg v ↔ v.observed = false ∨ cfg.maxDistance ≤ |v.distance| := by
  unfold Skipped
  rw [le_abs]
  constructor
  · rintro (h | h | h)
    · exact Or.inl h
    · exact Or.inr (Or.inl h)
    · exact Or.inr (Or.inr (by linarith))
  · rintro (h | h | h)
    · exact Or.inl h
    · exact Or.inr (Or.inl h)
    · exact Or.inr (Or.inr (by linarith))

/-- Fewer pending neighbours. -/
theorem Inv.mono (h : Inv A cfg size tsdf pend c es)
    (hp : ∀ g v, c g = some v → v.observed = true → |v.distance| < cfg.maxDistance → (∀ e ∈ es, e.2 ≠ g) → ∀ o n, IsNeighborOffset o → ¬ pend' g o →
      c (g + o) = some n → n.observed = true → n.fixed = false →
      pend g o → |n.distance| ≤ A.rnd (A.rnd (|v.distance| + A.rnd (unitLength o * size)) + cfg.minDiff)) :
    Inv A cfg size tsdf pend' c es := by
  refine ⟨h.band, h.free, h.known, h.flag, ?_⟩
  intro g v hv ho hd he o n hoff hnp hn hno hnf
  by_cases hpg : pend g o
  · exact hp g v hv ho hd he o n hoff hnp hn hno hnf hpg
  · exact h.relaxed g v hv ho hd he o n hoff hpg hn hno hnf

theorem inv_pop {b : ℕ} {g : Idx} {v : EVoxel} (h : Inv A cfg size tsdf (fun _ _ => False) c ((b, g) :: es)) (hv : c g = some v)
    (hc' : ∀ g', c' g' = if g' = g then some (popped v) else c g') : Inv A cfg size tsdf (fun g' _ => g' = g) c' es := by
  have hfield : ∀ g' w', c' g' = some w' → ∃ w, c g' = some w ∧ w'.distance = w.distance ∧ w'.observed = w.observed ∧ w'.fixed = w.fixed ∧
      (w'.inQueue = true → w.inQueue = true ∧ g' ≠ g) := by
    intro g' w' hw
    rw [hc'] at hw
    split_ifs at hw with e
    · injection hw with hw
      exact ⟨v, by rw [e]; exact hv, by rw [← hw]; rfl, by rw [← hw]; rfl, by rw [← hw]; rfl, fun hq => by rw [← hw] at hq; cases hq⟩
    · exact ⟨w', hw, rfl, rfl, rfl, fun hq => ⟨hq, e⟩⟩
  have hback : ∀ g' w, c g' = some w → ∃ w', c' g' = some w' ∧ w'.distance = w.distance := by
    intro g' w hw
    by_cases e : g' = g
    · rw [e, hv] at hw
      injection hw with hw
      exact ⟨popped v, by rw [hc', if_pos e], by rw [← hw]; rfl⟩
    · exact ⟨w, by rw [hc', if_neg e]; exact hw, rfl⟩
  refine ⟨?_, ?_, ?_, ?_, ?_⟩
  · intro g' t ht
    obtain ⟨q, hq⟩ := h.band g' t ht
    rw [hc']
    split_ifs with e
    · rw [e, hv] at hq
      injection hq with hq
      exact ⟨false, by rw [hq]; rfl⟩
    · exact ⟨q, hq⟩
  · intro out g' hg
    obtain ⟨d, hh, q, p, h1, h2, h3, h4⟩ := h.free out g' hg
    have h4' : (|d| = cfg.defaultDistance ∧ p = 0) ∨ (SurfacePath A.rnd size cfg.maxDistance 0 (viewOf cfg) tsdf out g' |d| ∧
        ParentOf A cfg size tsdf c' out g' p |d|) := by
      rcases h4 with h4 | ⟨h4, h5, h6, w, h7, h8⟩
      · exact Or.inl h4
      · obtain ⟨w', h9, h10⟩ := hback _ w h7
        exact Or.inr ⟨h4, h5, h6, w', h9, by rw [h10]; exact h8⟩
    rw [hc']
    split_ifs with e
    · rw [e, hv] at h1
      injection h1 with h1
      exact ⟨d, hh, false, p, by rw [h1]; rfl, h2, h3, h4'⟩
    · exact ⟨d, hh, q, p, h1, h2, h3, h4'⟩
  · intro g' w' hw ho
    obtain ⟨w, h1, -, h3, -, -⟩ := hfield g' w' hw
    exact h.known g' w h1 (h3 ▸ ho)
  · intro g' w' hw hq
    obtain ⟨w, h1, -, -, -, h5⟩ := hfield g' w' hw
    obtain ⟨h6, h7⟩ := h5 hq
    obtain ⟨e, he, he'⟩ := h.flag g' w h1 h6
    rcases List.mem_cons.1 he with rfl | he
    · exact absurd he'.symm h7
    · exact ⟨e, he, he'⟩
  · intro g' w' hw ho hd hes o n' hoff hnp hn' hno hnf
    obtain ⟨w, h1, h2, h3, h4, -⟩ := hfield g' w' hw
    obtain ⟨n, m1, m2, m3, m4, -⟩ := hfield _ n' hn'
    rw [m2, h2]
    refine h.relaxed g' w h1 (by rw [← h3]; exact ho) (by rw [← h2]; exact hd) ?_ o n hoff id m1 (by rw [← m3]; exact hno) (by rw [← m4]; exact hnf)
    intro e he
    rcases List.mem_cons.1 he with rfl | he
    · exact fun e0 => hnp e0.symm
    · exact hes e he

/-- What an observed voxel is. -/
theorem Inv.side (h : Inv A cfg size tsdf pend c es) {g : Idx} {v : EVoxel} (hv : c g = some v) (ho : v.observed = true) :
    ∃ out, OnSide out v.distance ∧
      (FreeOn (viewOf cfg) tsdf out g ∨ ∃ t, InBand (viewOf cfg) tsdf g t ∧ OnSide out t ∧ v.distance = t) ∧
      (v.fixed = false → FreeOn (viewOf cfg) tsdf out g) ∧
      (|v.distance| = cfg.defaultDistance ∧ v.fixed = false ∨ SurfacePath A.rnd size cfg.maxDistance 0 (viewOf cfg) tsdf out g |v.distance|) := by
  rcases h.known g v hv ho with ⟨t, ht⟩ | ⟨out, hf⟩
  · obtain ⟨q, hq⟩ := h.band g t ht
    rw [hv] at hq
    injection hq with hq
    rw [hq]
    rcases le_or_gt t 0 with h0 | h0
    · exact ⟨false, h0, Or.inr ⟨t, ht, h0, rfl⟩, fun h => by simp at h, Or.inr (.start ht h0)⟩
    · exact ⟨true, h0, Or.inr ⟨t, ht, h0, rfl⟩, fun h => by simp at h, Or.inr (.start ht h0)⟩
  · obtain ⟨d, hh, q, p, h1, h2, h3, h4⟩ := h.free out g hf
    rw [hv] at h1
    injection h1 with h1
    rw [h1]
    refine ⟨out, h2, Or.inl hf, fun _ => hf, ?_⟩
    rcases h4 with h4 | h4
    · exact Or.inl ⟨h4.1, rfl⟩
    · exact Or.inr h4.1

/-! ### The loop keeps the invariant -/

/-- The neighbours of `g` outside `done` are still to be visited. -/
def pending (g : Idx) (done : List (Idx × ℚ)) (g' o : Idx) : Prop := g' = g ∧ ∀ e ∈ done, e.1 ≠ o

/-- A step between neighbours stays on its side. -/
theorem Inv.same_side (sep : Separated (viewOf cfg) tsdf) (h : Inv A cfg size tsdf pend c es) {g o : Idx} {v n : EVoxel} (hv : c g = some v)
    (ho : v.observed = true) (hoff : IsNeighborOffset o) (hn : c (g + o) = some n) (hno : n.observed = true) (hnf : n.fixed = false) :
    ∃ out, OnSide out v.distance ∧ OnSide out n.distance ∧ FreeOn (viewOf cfg) tsdf out (g + o) ∧
      (FreeOn (viewOf cfg) tsdf out g ∨ ∃ t, InBand (viewOf cfg) tsdf g t ∧ OnSide out t) ∧
      (|v.distance| = cfg.defaultDistance ∨ SurfacePath A.rnd size cfg.maxDistance 0 (viewOf cfg) tsdf out g |v.distance|) := by
  obtain ⟨out, v1, v2, v3, v4⟩ := h.side hv ho
  obtain ⟨out', n1, -, n3, -⟩ := h.side hn hno
  have hfree := n3 hnf
  obtain ⟨s1, s2⟩ := sep out' g o hoff hfree
  have e : out = out' := by
    rcases v2 with v2 | ⟨t, t1, t2, -⟩
    · by_contra hne
      have : out = !out' := by cases out <;> cases out' <;> simp_all
      exact s1 (this ▸ v2)
    · have h3 := s2 t t1
      cases out <;> cases out'
      · rfl
      · exact absurd (show (0 : ℚ) < t from h3) (not_lt.2 (show t ≤ 0 from t2))
      · exact absurd (show (0 : ℚ) < t from t2) (not_lt.2 (show t ≤ 0 from h3))
      · rfl
  subst e
  refine ⟨out, v1, n1, hfree, ?_, v4.imp (·.1) id⟩
  rcases v2 with v2 | ⟨t, t1, t2, -⟩
  · exact Or.inl v2
  · exact Or.inr ⟨t, t1, t2⟩

theorem stepTo_quasi (hq : cfg.fullEuclidean = false) (parent dir : Idx) (kd : ℚ) :
    stepTo A cfg size parent dir kd = some (-dir, A.rnd (kd * size)) := by
  unfold stepTo
  rw [if_neg (by rw [hq]; simp)]

theorem unitLength_neg (o : Idx) : unitLength (-o) = unitLength o := by
  have : sqLen (-o) = sqLen o := by
    unfold sqLen
    simp only [Vec3.neg_x, Vec3.neg_y, Vec3.neg_z]
    ring
  unfold unitLength
  rw [this]

theorem offset_neg {o : Idx} (h : IsNeighborOffset o) : IsNeighborOffset (-o) := by
  obtain ⟨⟨⟨a1, a2⟩, ⟨b1, b2⟩, ⟨c1, c2⟩⟩, h0⟩ := h
  refine ⟨⟨⟨?_, ?_⟩, ⟨?_, ?_⟩, ⟨?_, ?_⟩⟩, ?_⟩
  · show -1 ≤ -o.x; omega
  · show -o.x ≤ 1; omega
  · show -1 ≤ -o.y; omega
  · show -o.y ≤ 1; omega
  · show -1 ≤ -o.z; omega
  · show -o.z ≤ 1; omega
  · intro e
    apply h0
    have hx := congrArg Vec3.x e
    have hy := congrArg Vec3.y e
    have hz := congrArg Vec3.z e
    simp only [Vec3.neg_x, Vec3.neg_y, Vec3.neg_z] at hx hy hz
    ext
    · show o.x = 0; exact neg_eq_zero.1 hx
    · show o.y = 0; exact neg_eq_zero.1 hy
    · show o.z = 0; exact neg_eq_zero.1 hz

theorem back (g o : Idx) : g + o + -o = g := by
  ext
  · show g.x + o.x + -o.x = g.x; ring
  · show g.y + o.y + -o.y = g.y; ring
  · show g.z + o.z + -o.z = g.z; ring

/-- A neighbour that stays is in order. -/
theorem inv_stay {u : ℚ} (R : Rounding A u) (hq : cfg.fullEuclidean = false) (sep : Separated (viewOf cfg) tsdf) {g : Idx} {v : EVoxel}
    {done : List (Idx × ℚ)} {e : Idx × ℚ} (he : e ∈ neighborTable) {s : State} (hv : content s.layer g = some (popped v))
    (h : Inv A cfg size tsdf (pending g done) (content s.layer) es)
    (hst : Stays A cfg (popped v) size (g + e.1) e s) : Inv A cfg size tsdf (pending g (e :: done)) (content s.layer) es := by
  obtain ⟨he1, he2⟩ := table_spec he
  refine h.mono ?_
  rintro g' w hw hwo hwd hes o n hoff hnp hn hno hnf ⟨rfl, hdone⟩
  rw [hv] at hw
  injection hw with hw
  subst hw
  have eo : e.1 = o := by
    by_contra hne
    exact hnp ⟨rfl, fun e' he' => by
      rcases List.mem_cons.1 he' with rfl | he'
      · exact hne
      · exact hdone e' he'⟩
  subst eo
  obtain ⟨out, o1, o2, -⟩ := h.same_side sep hv hwo he1 hn hno hnf
  have h1 := hst n _ _ hn hno hnf (stepTo_quasi hq _ _ _)
  rw [relax_same R o1 o2, he2] at h1
  split_ifs at h1 with h2
  exact not_lt.1 h2

theorem relax_bounds {u : ℚ} (R : Rounding A u) (hm : 0 ≤ cfg.minDiff) {x l : ℚ} :
    A.rnd (x + l) ≤ A.rnd (A.rnd (x + l) + cfg.minDiff) := by
  conv_lhs => rw [← R.idem (x + l)]
  exact R.mono _ _ (by linarith)

/-- Updating a neighbour keeps the invariant. -/
theorem inv_move (F : Fits A cfg L) (hq : cfg.fullEuclidean = false) (hmax : cfg.maxDistance ≤ cfg.defaultDistance)
    (sep : Separated (viewOf cfg) tsdf) (hsize : 0 ≤ size) {g : Idx} {v : EVoxel} (hrep : Rep A v.distance)
    {done : List (Idx × ℚ)} {e : Idx × ℚ} (he : e ∈ neighborTable) {s s' : State} {es' : List (ℕ × Idx)}
    (hv : content s.layer g = some (popped v))
    (h : Inv A cfg size tsdf (pending g done) (content s.layer) es) (hns : ¬ Skipped cfg v)
    (hmv : Moved A cfg L (popped v) size (g + e.1) e s es s' es') :
    Inv A cfg size tsdf (pending g (e :: done)) (content s'.layer) es' := by
  obtain ⟨he1, he2⟩ := table_spec he
  obtain ⟨n, x, p, d, n1, n2, n3, n4, n5, n6, n7, -⟩ := hmv
  rw [stepTo_quasi hq] at n4
  simp only [Option.some.injEq, Prod.mk.injEq] at n4
  obtain ⟨rfl, rfl⟩ := n4
  have hv2 : v.observed = true ∧ |v.distance| < cfg.maxDistance := by
    rw [skipped_iff, not_or] at hns
    exact ⟨by simpa using hns.1, not_le.1 hns.2⟩
  obtain ⟨out, o1, o2, o3, o4, o5⟩ := h.same_side sep hv hv2.1 he1 n1 n2 n3
  have hpath : SurfacePath A.rnd size cfg.maxDistance 0 (viewOf cfg) tsdf out g |v.distance| := by
    rcases o5 with o5 | o5
    · have : |v.distance| = cfg.defaultDistance := o5
      linarith [hv2.2]
    · exact o5
  change relaxDistance A cfg v.distance n.distance _ = _ at n5
  rw [relax_same F.R (v := v.distance) o1 o2, he2] at n5
  have hl : 0 ≤ A.rnd (unitLength e.1 * size) := by
    refine F.R.ge_of_ge ?_ F.R.zero
    have := (table_pos he).le
    rw [he2] at this
    positivity
  have hy : |v.distance| ≤ A.rnd (|v.distance| + A.rnd (unitLength e.1 * size)) := by
    have hr : Rep A |v.distance| := by
      rcases abs_choice v.distance with h | h <;> rw [h]
      · exact hrep
      · exact F.R.rep_neg hrep
    exact F.R.ge_of_ge (by linarith) hr
  by_cases hlt : A.rnd (A.rnd (|v.distance| + A.rnd (unitLength e.1 * size)) + cfg.minDiff) < |n.distance|
  swap
  · rw [if_neg hlt] at n5
    cases n5
  rw [if_pos hlt] at n5
  have hle := relax_bounds F.R F.minDiff (x := |v.distance|) (l := A.rnd (unitLength e.1 * size))
  have hy0 : 0 ≤ A.rnd (|v.distance| + A.rnd (unitLength e.1 * size)) := le_trans (abs_nonneg _) hy
  have hx : |x| = A.rnd (|v.distance| + A.rnd (unitLength e.1 * size)) ∧ OnSide out x := by
    injection n5 with n5
    rw [← n5]
    cases out
    · refine ⟨?_, ?_⟩
      · simp [abs_of_nonneg hy0]
      · show -A.rnd _ ≤ 0
        exact neg_nonpos.2 hy0
    · have hv0 : 0 < v.distance := o1
      refine ⟨?_, ?_⟩
      · simp [abs_of_nonneg hy0]
      · show 0 < A.rnd _
        exact lt_of_lt_of_le (abs_pos.2 hv0.ne') hy
  obtain ⟨hx1, hx2⟩ := hx
  have hxn : |x| ≤ |n.distance| := by rw [hx1]; linarith
  have hk : g ≠ g + e.1 := fun e0 => neighbor_ne he1 e0.symm
  -- the content after the step
  have hcon : ∀ g' w', content s'.layer g' = some w' → (g' = g + e.1 ∧ w' = ⟨x, true, n.hallucinated, true, false, -e.1⟩) ∨
      (g' ≠ g + e.1 ∧ content s.layer g' = some w') := by
    intro g' w' hw
    rw [n6] at hw
    split_ifs at hw with e0
    · injection hw with hw
      exact Or.inl ⟨e0, hw.symm⟩
    · exact Or.inr ⟨e0, hw⟩
  have hdown : ∀ g' w, content s.layer g' = some w → ∃ w', content s'.layer g' = some w' ∧ |w'.distance| ≤ |w.distance| := by
    intro g' w hw
    rw [n6]
    split_ifs with e0
    · rw [e0, n1] at hw
      injection hw with hw
      exact ⟨_, rfl, by rw [← hw]; exact hxn⟩
    · exact ⟨w, hw, le_rfl⟩
  have hes : ∀ e' ∈ es, e' ∈ es' := by
    intro e' he'
    rcases n7 with ⟨n7, -⟩ | n7
    · rw [n7]; exact he'
    · rw [n7]; exact mem_insertStable.2 (Or.inr he')
  have hin : ∃ e' ∈ es', e'.2 = g + e.1 := by
    rcases n7 with ⟨n7, n8⟩ | n7
    · rw [n7]; exact h.flag _ n n1 n8
    · exact ⟨(bucketOf L.n L.mx x, g + e.1), by rw [n7]; exact mem_insertStable.2 (Or.inl rfl), rfl⟩
  refine ⟨?_, ?_, ?_, ?_, ?_⟩
  · intro g' t ht
    obtain ⟨q, hq'⟩ := h.band g' t ht
    have : g' ≠ g + e.1 := by
      rintro rfl
      rw [n1] at hq'
      injection hq' with hq'
      rw [hq'] at n3
      cases n3
    exact ⟨q, by rw [n6, if_neg this]; exact hq'⟩
  · intro out' g' hg
    by_cases e0 : g' = g + e.1
    · subst e0
      obtain ⟨d0, h0, q0, p0, f1, f2, f3, -⟩ := h.free out' _ hg
      have : out' = out := by
        have := n1.symm.trans f1
        injection this with this
        have hd : n.distance = d0 := by rw [this]
        rw [← hd] at f2
        cases out <;> cases out'
        · rfl
        · exact absurd (show (0 : ℚ) < n.distance from f2) (not_lt.2 (show n.distance ≤ 0 from o2))
        · exact absurd (show (0 : ℚ) < n.distance from o2) (not_lt.2 (show n.distance ≤ 0 from f2))
        · rfl
      subst this
      refine ⟨x, n.hallucinated, true, -e.1, by rw [n6, if_pos rfl], hx2, ?_, Or.inr ⟨?_, offset_neg he1, ?_, popped v, ?_, ?_⟩⟩
      · have : n.distance = d0 := by
          have := n1.symm.trans f1
          injection this with this
          rw [this]
        rw [← this] at f3
        linarith
      · rw [hx1, ← F.R.idem, ← add_zero (A.rnd (|v.distance| + _))]
        exact .step hpath hv2.2 he1 hg
      · rw [back]; exact o4
      · rw [back, n6, if_neg hk]; exact hv
      · rw [unitLength_neg, hx1]; exact le_rfl
    · obtain ⟨d0, h0, q0, p0, f1, f2, f3, f4⟩ := h.free out' g' hg
      refine ⟨d0, h0, q0, p0, by rw [n6, if_neg e0]; exact f1, f2, f3, ?_⟩
      rcases f4 with f4 | ⟨f4, f5, f6, w, f7, f8⟩
      · exact Or.inl f4
      · obtain ⟨w', w1, w2⟩ := hdown _ w f7
        exact Or.inr ⟨f4, f5, f6, w', w1, (F.R.mono _ _ (by linarith)).trans f8⟩
  · intro g' w' hw ho
    rcases hcon g' w' hw with ⟨rfl, -⟩ | ⟨-, hw⟩
    · exact h.known _ n n1 n2
    · exact h.known g' w' hw ho
  · intro g' w' hw hq'
    rcases hcon g' w' hw with ⟨rfl, -⟩ | ⟨-, hw⟩
    · exact hin
    · obtain ⟨e', a1, a2⟩ := h.flag g' w' hw hq'
      exact ⟨e', hes e' a1, a2⟩
  · intro g' w' hw ho hd hnes o m' hoff hnp hm' hmo hmf
    rcases hcon g' w' hw with ⟨rfl, -⟩ | ⟨-, hw⟩
    · obtain ⟨e', a1, a2⟩ := hin
      exact absurd a2 (hnes e' a1)
    have hnes' : ∀ e' ∈ es, e'.2 ≠ g' := fun e' he' => hnes e' (hes e' he')
    by_cases hpg : pending g done g' o
    · obtain ⟨rfl, hdone⟩ := hpg
      have eo : e.1 = o := by
        by_contra hne
        exact hnp ⟨rfl, fun e' he' => by
          rcases List.mem_cons.1 he' with rfl | he'
          · exact hne
          · exact hdone e' he'⟩
      subst eo
      rw [n6, if_pos rfl] at hm'
      injection hm' with hm'
      rw [hv] at hw
      injection hw with hw
      rw [← hm', ← hw]
      show |x| ≤ A.rnd (A.rnd (|v.distance| + _) + _)
      rw [hx1]
      exact hle
    · rcases hcon _ m' hm' with ⟨e0, hm''⟩ | ⟨-, hm''⟩
      · have := h.relaxed g' w' hw ho hd hnes' o n hoff hpg (e0 ▸ n1) n2 n3
        rw [hm'']
        exact hxn.trans this
      · exact h.relaxed g' w' hw ho hd hnes' o m' hoff hpg hm'' hmo hmf

/-- The open-set loop after a batch copy. -/
theorem processOpen_batch (F : Fits A cfg L) (hq : cfg.fullEuclidean = false) (hmax : cfg.maxDistance ≤ cfg.defaultDistance)
    (sep : Separated (viewOf cfg) tsdf) {S : Finset Idx} {es : List (ℕ × Idx)} {s : State} (G : Good A L S es s)
    (h : Inv A cfg s.layer.cfg.voxelSize tsdf (fun _ _ => False) (content s.layer) es) :
    ∃ N s', (∀ fuel, N ≤ fuel → processOpen A cfg fuel s = .ok (some s')) ∧ Good A L S [] s' ∧ Frame s s' ∧
      Inv A cfg s.layer.cfg.voxelSize tsdf (fun _ _ => False) (content s'.layer) [] := by
  have hs := G.wf.size_pos.le
  refine processOpen_visit F s.layer.cfg.voxelSize (P := fun c es => Inv A cfg s.layer.cfg.voxelSize tsdf (fun _ _ => False) c es)
    (Q := fun g v done c es => c g = some (popped v) ∧ Inv A cfg s.layer.cfg.voxelSize tsdf (pending g done) c es) ?_ ?_ ?_ ?_ ?_ es s rfl G h
  · intro c b g es v c' hi hv hc'
    refine ⟨by rw [hc', if_pos rfl], (inv_pop hi hv hc').mono ?_⟩
    rintro g' w - - - - o n - hnp - - - rfl
    exact absurd ⟨rfl, fun e he => by cases he⟩ hnp
  · rintro g v c es ⟨hv, hi⟩ hsk
    refine hi.mono ?_
    rintro g' w hw ho hd - o n - - - - - ⟨rfl, -⟩
    rw [hv] at hw
    injection hw with hw
    rw [skipped_iff] at hsk
    rw [← hw] at ho hd
    rcases hsk with hsk | hsk
    · rw [show (popped v).observed = v.observed from rfl, hsk] at ho
      cases ho
    · exact absurd hd (not_lt.2 hsk)
  · rintro g v done s1 es1 e he - ⟨hv, hi⟩ - hst
    exact ⟨hv, inv_stay F.R hq sep he hv hi hst⟩
  · rintro g v done s1 es1 s2 es2 e he G1 ⟨hv, hi⟩ hns hmv
    refine ⟨?_, inv_move F hq hmax sep hs (G1.vals g _ hv).1 he hv hi hns hmv⟩
    obtain ⟨n, x, p, d, -, -, -, -, -, n6, -⟩ := hmv
    rw [n6, if_neg fun e0 => neighbor_ne (table_spec he).1 e0.symm]
    exact hv
  · rintro g v c es ⟨hv, hi⟩
    refine hi.mono ?_
    rintro g' w - - - - o n hoff - - - - ⟨rfl, hdone⟩
    exact absurd rfl (hdone (o, unitLength o) (List.mem_reverse.2 (mem_neighborTable hoff)))

/-- With an empty queue no path is shorter. -/
theorem Inv.le_path (F : Fits A cfg L) (h : Inv A cfg size tsdf (fun _ _ => False) c []) {out : Bool} {g : Idx} {x : ℚ}
    (hp : SurfacePath A.rnd size cfg.maxDistance cfg.minDiff (viewOf cfg) tsdf out g x) :
    ∃ v, c g = some v ∧ v.observed = true ∧ |v.distance| ≤ x := by
  induction hp with
  | start ht _ =>
    obtain ⟨q, hq⟩ := h.band _ _ ht
    exact ⟨_, hq, rfl, le_rfl⟩
  | step _ hx hd hf ih =>
    obtain ⟨v, v1, v2, v3⟩ := ih
    obtain ⟨d, hh, q, p, n1, -⟩ := h.free _ _ hf
    refine ⟨_, n1, rfl, ?_⟩
    refine (h.relaxed _ v v1 v2 (by linarith) (by simp) _ _ hd (by simp) n1 rfl rfl).trans ?_
    refine F.R.mono _ _ (add_le_add (F.R.mono _ _ ?_) le_rfl)
    linarith

/-! ### The copy -/

/-- An ESDF voxel after the copy of a batch update. -/
def batchSeed (cfg : Config) (τ : TsdfVoxel ℚ) : EVoxel :=
  if τ.weight < cfg.minWeight then
    if cfg.addOccupiedCrust then ⟨-cfg.defaultDistance, true, true, false, false, 0⟩ else Sphere.esdfDefault
  else if |τ.distance| < cfg.minDistance then ⟨τ.distance, true, false, true, true, 0⟩
  else ⟨withSign τ.distance cfg.defaultDistance, true, false, false, false, 0⟩

/-- During the copy every voxel is new or a seed, and the band voxels are queued. -/
structure Batch (A : Flt) (cfg : Config) (L : Limits) (tsdf : VLayer (TsdfVoxel ℚ)) (es : List (ℕ × Idx)) (s : State) : Prop where
  ready : Ready A L es s
  raise : s.raise = []
  seeds : ∀ g v, content s.layer g = some v → v = Sphere.esdfDefault ∨ ∃ τ, content tsdf g = some τ ∧ v = batchSeed cfg τ
  flag : ∀ g v, content s.layer g = some v → v.inQueue = true → ∃ e ∈ es, e.2 = g

theorem signum_withSign (t : ℚ) {c : ℚ} (hc : 0 < c) : signum (withSign t c) = signum t := by
  unfold withSign
  rcases signum_cases t with ⟨a, b⟩ | ⟨a, b⟩ | ⟨a, b⟩
  · rw [b, signum_neg (by push_cast; linarith)]
  · rw [b]
    simp [signum_zero]
  · rw [b, signum_pos (by push_cast; linarith)]

theorem seed_batch (F : Fits A cfg L) (hd : 0 < cfg.defaultDistance) {τ : TsdfVoxel ℚ} (hw : ¬ τ.weight < cfg.minWeight) {x : EVoxel}
    (hrep : |τ.distance| < cfg.minDistance → Rep A τ.distance) (hx : x = Sphere.esdfDefault ∨ x = batchSeed cfg τ) :
    (seed A cfg false τ.distance x).neighbors = false ∧ (seed A cfg false τ.distance x).raise = false ∧
    (⟨(seed A cfg false τ.distance x).voxel.distance, true, false, (seed A cfg false τ.distance x).voxel.inQueue,
      (seed A cfg false τ.distance x).voxel.fixed, (seed A cfg false τ.distance x).voxel.parent⟩ : EVoxel) = batchSeed cfg τ ∧
    ((seed A cfg false τ.distance x).queue = true ∨ (batchSeed cfg τ).inQueue = x.inQueue) := by
  unfold batchSeed at hx ⊢
  rw [if_neg hw] at hx ⊢
  rcases hx with rfl | rfl
  · have e : seed A cfg false τ.distance Sphere.esdfDefault = seedNew cfg false τ.distance Sphere.esdfDefault := rfl
    rw [e]
    unfold seedNew
    by_cases hb : |τ.distance| < cfg.minDistance
    · have : isFixed cfg τ.distance = true := by unfold isFixed; simpa using hb
      rw [if_pos this, if_pos hb]
      exact ⟨rfl, rfl, rfl, Or.inl rfl⟩
    · have : ¬ isFixed cfg τ.distance = true := by unfold isFixed; simpa using hb
      rw [if_neg this, if_neg hb]
      exact ⟨rfl, rfl, rfl, Or.inr rfl⟩
  · by_cases hb : |τ.distance| < cfg.minDistance
    · have h1 : isFixed cfg τ.distance = true := by unfold isFixed; simpa using hb
      rw [if_pos hb]
      have e : seed A cfg false τ.distance ⟨τ.distance, true, false, true, true, 0⟩ = ⟨⟨τ.distance, true, false, true, true, 0⟩, false, false, false⟩ := by
        show seedOld A cfg τ.distance _ = _
        have r1 : τ.distance ≤ A.rnd (τ.distance + cfg.minDiff) := F.R.ge_of_ge (by linarith [F.minDiff]) (hrep hb)
        have r2 : A.rnd (τ.distance - cfg.minDiff) ≤ τ.distance := F.R.le_of_le (by linarith [F.minDiff]) (hrep hb)
        unfold seedOld
        rw [if_pos (by simp [h1]), if_neg (by simp [h1]), if_neg (by rintro (⟨-, h⟩ | ⟨-, h⟩) <;> simp only at h <;> linarith),
          if_neg (by rintro (⟨-, h⟩ | ⟨-, h⟩) <;> simp only at h <;> linarith)]
      rw [e]
      exact ⟨rfl, rfl, rfl, Or.inr rfl⟩
    · have h1 : isFixed cfg τ.distance = false := by unfold isFixed; simpa using hb
      rw [if_neg hb]
      have e : seed A cfg false τ.distance ⟨withSign τ.distance cfg.defaultDistance, true, false, false, false, 0⟩ =
          ⟨⟨withSign τ.distance cfg.defaultDistance, true, false, false, false, 0⟩, false, false, false⟩ := by
        show seedOld A cfg τ.distance _ = _
        unfold seedOld
        rw [if_neg (by simp [h1]), if_neg (by simp only [signum_withSign _ hd, ne_eq, not_true_eq_false, not_false_eq_true])]
      rw [e]
      exact ⟨rfl, rfl, rfl, Or.inr rfl⟩

theorem batch_write {s : State} (B : Batch A cfg L tsdf es s) {g : Idx} {τ : TsdfVoxel ℚ} (hτ : content tsdf g = some τ) {s' : State} {es' : List (ℕ × Idx)}
    (hr : Ready A L es' s') (hraise : s'.raise = [])
    (hc : ∀ g', content s'.layer g' = if g' = g then some (batchSeed cfg τ) else content s.layer g') (hes : ∀ e ∈ es, e ∈ es')
    (hin : (batchSeed cfg τ).inQueue = true → ∃ e ∈ es', e.2 = g) : Batch A cfg L tsdf es' s' := by
  refine ⟨hr, hraise, ?_, ?_⟩
  · intro g' v hv
    rw [hc] at hv
    split_ifs at hv with e
    · injection hv with hv
      exact Or.inr ⟨τ, e ▸ hτ, hv.symm⟩
    · exact B.seeds g' v hv
  · intro g' v hv hq
    rw [hc] at hv
    split_ifs at hv with e
    · injection hv with hv
      rw [e]
      exact hin (by rw [hv]; exact hq)
    · obtain ⟨e', h1, h2⟩ := B.flag g' v hv hq
      exact ⟨e', hes e' h1, h2⟩

theorem copyVoxel_batch (F : CopyFits A cfg L) (hd : 0 < cfg.defaultDistance) {s : State} (B : Batch A cfg L tsdf es s) {i v : Idx}
    (hi : Allocated s.layer i) (hv : InBlock s.layer.cfg.vps v) {τ : TsdfVoxel ℚ} (hτ : content tsdf (globalIndex s.layer.cfg.vps i v) = some τ)
    (hw : ¬ τ.weight < cfg.minWeight) (ht : isFixed cfg τ.distance = true → Rep A τ.distance ∧ |τ.distance| ≤ L.B) :
    ∃ s' es', copyVoxel A cfg false i v τ.distance s = .ok s' ∧ Batch A cfg L tsdf es' s' ∧ Frame s s' := by
  obtain ⟨S, G, hr⟩ := B.ready
  obtain ⟨x, x1, x2⟩ := readVoxel_ok G.wf hv hi
  have hg : globalIndex s.layer.cfg.vps i v ∈ S := (G.dom _).1 (by rw [x2]; rfl)
  have hx : x = Sphere.esdfDefault ∨ x = batchSeed cfg τ := by
    rcases B.seeds _ x x2 with h | ⟨τ', h1, h2⟩
    · exact Or.inl h
    · rw [hτ] at h1
      injection h1 with h1
      exact Or.inr (h1 ▸ h2)
  obtain ⟨b1, b2, b3, b4⟩ := seed_batch F.toFits hd hw (fun h => (ht (by unfold isFixed; simpa using h)).1) hx
  have y2 := seed_rep F false ht (G.vals _ _ x2)
  have y1 : seedNeighbors A cfg s.layer (globalIndex s.layer.cfg.vps i v) (seed A cfg false τ.distance x) =
      .ok ((seed A cfg false τ.distance x).voxel, (seed A cfg false τ.distance x).queue) := by
    unfold seedNeighbors
    rw [if_neg (by rw [b1]; simp)]
    rfl
  have hq : ∃ q es', pushIf s.open_ (seed A cfg false τ.distance x).queue (globalIndex s.layer.cfg.vps i v)
      (seed A cfg false τ.distance x).voxel.distance = .ok q ∧ BQueue.Rel q ⟨L.n, L.mx, es'⟩ ∧
      (∀ e ∈ es', e.2 ∈ S) ∧ (∀ e ∈ es, e ∈ es') ∧
      ((batchSeed cfg τ).inQueue = true → ∃ e ∈ es', e.2 = globalIndex s.layer.cfg.vps i v) := by
    unfold pushIf
    split_ifs with hpush
    · obtain ⟨q', p1, p2⟩ := push_ok G.queue (globalIndex s.layer.cfg.vps i v) (F.toFits.bucket y2.2)
      refine ⟨q', _, p1, p2, ?_, fun e he => mem_insertStable.2 (Or.inr he), fun _ => ⟨_, mem_insertStable.2 (Or.inl rfl), rfl⟩⟩
      intro e' he'
      rcases mem_insertStable.1 he' with h | h
      · rw [h]; exact hg
      · exact G.queued _ h
    · refine ⟨_, es, rfl, G.queue, G.queued, fun _ => id, fun h => ?_⟩
      rcases b4 with b4 | b4
      · exact absurd b4 hpush
      · exact B.flag _ x x2 (b4 ▸ h)
  obtain ⟨q, es', q1, q2, q3, q4, q5⟩ := hq
  have hval : Rep A (batchSeed cfg τ).distance ∧ |(batchSeed cfg τ).distance| ≤ L.B := by rw [← b3]; exact y2
  obtain ⟨-, l', w1, w2, w3⟩ := G.writeBlock hi hv (batchSeed cfg τ) hval
  obtain ⟨g1, g2, -⟩ := w3 s.raise q es' s.updated q2 q3
  refine ⟨⟨l', q, s.raise, s.updated⟩, es', ?_, batch_write B hτ ⟨S, g1, hr⟩ B.raise w2 q4 q5, g2 rfl⟩
  unfold copyVoxel
  simp only [x1, y1, q1, Outcome.bind_ok]
  rw [b3, w1, b2]
  rfl

theorem crustVoxel_batch (F : CopyFits A cfg L) {s : State} (B : Batch A cfg L tsdf es s) {i v : Idx}
    (hi : Allocated s.layer i) (hv : InBlock s.layer.cfg.vps v) {τ : TsdfVoxel ℚ} (hτ : content tsdf (globalIndex s.layer.cfg.vps i v) = some τ)
    (hw : τ.weight < cfg.minWeight) :
    ∃ s', crustVoxel cfg false i v s = .ok s' ∧ Batch A cfg L tsdf es s' ∧ Frame s s' := by
  obtain ⟨S, G, hr⟩ := B.ready
  obtain ⟨x, x1, x2⟩ := readVoxel_ok G.wf hv hi
  unfold crustVoxel
  by_cases hc : cfg.addOccupiedCrust = true
  · rw [if_pos (by simp [hc])]
    have e0 : batchSeed cfg τ = ⟨-cfg.defaultDistance, true, true, false, false, 0⟩ := by
      unfold batchSeed; rw [if_pos hw, if_pos hc]
    have hx : (⟨-cfg.defaultDistance, true, true, x.inQueue, false, x.parent⟩ : EVoxel) = batchSeed cfg τ := by
      rcases B.seeds _ x x2 with h | ⟨τ', h1, h2⟩
      · rw [e0, h]; rfl
      · rw [hτ] at h1
        injection h1 with h1
        rw [← h1, e0] at h2
        rw [e0, h2]
    obtain ⟨-, l', w1, w2, w3⟩ := G.writeBlock hi hv (batchSeed cfg τ)
      ⟨by rw [e0]; exact F.R.rep_neg F.default_rep, by
        rw [e0]
        simp only [abs_neg, abs_of_nonneg F.default_nonneg]
        exact F.default_le⟩
    obtain ⟨g1, g2, -⟩ := w3 s.raise s.open_ es s.updated G.queue G.queued
    refine ⟨⟨l', s.open_, s.raise, s.updated⟩, ?_, batch_write B hτ ⟨S, g1, hr⟩ B.raise w2 (fun _ => id) (fun h => by rw [e0] at h; cases h), g2 rfl⟩
    simp only [x1, Outcome.bind_ok]
    rw [hx, w1]
    rfl
  · rw [if_neg (by simpa using hc)]
    exact ⟨s, rfl, B, Frame.refl s⟩

theorem tsdfBlock_batch (F : CopyFits A cfg L) (hd : 0 < cfg.defaultDistance) {s : State} (B : Batch A cfg L tsdf es s)
    (T : TsdfFits A cfg L s.layer.cfg.vps tsdf) (i : Idx) :
    ∃ s' es', tsdfBlock A cfg false tsdf s i = .ok s' ∧ Batch A cfg L tsdf es' s' ∧ s'.layer.cfg = s.layer.cfg := by
  unfold tsdfBlock
  cases hb : block? tsdf i with
  | none => exact ⟨s, es, rfl, B, rfl⟩
  | some b =>
    have wf : WellFormed s.layer := B.ready.choose_spec.1.wf
    have wf1 := allocateBlock_wf wf Sphere.esdfDefault i
    simp only
    generalize hl : markUpdated (allocateBlock Sphere.esdfDefault s.layer i) i (Flags.ofBool true) = l
    have lcfg : l.cfg = s.layer.cfg := by rw [← hl]; exact allocateBlock_cfg _ _ _
    have lcon : ∀ g, content l g = if blockOf s.layer.cfg.vps g = i then some ((content s.layer g).getD Sphere.esdfDefault)
        else content s.layer g := by
      intro g
      rw [← hl, markUpdated_content wf1, allocateBlock_content wf]
    have lall : Allocated l i := by
      rw [allocated_iff_status, ← hl, markUpdated_status, allocateBlock_status, if_pos rfl, if_pos rfl]
      rfl
    have hR : Ready A L es ⟨l, s.open_, s.raise, s.updated⟩ := by
      refine B.ready.allocate F (i := i) ?_ lcfg (hl ▸ markUpdated_wf wf1 _ _) lcon
      intro g hg
      refine T.range g ?_
      rw [content_isSome T.wf, T.vps, hg, hb]
      rfl
    have hold : ∀ g v, content l g = some v → v = Sphere.esdfDefault ∨ content s.layer g = some v := by
      intro g v hv
      rw [lcon] at hv
      split_ifs at hv
      · injection hv with hv
        cases hcg : content s.layer g with
        | none => rw [hcg] at hv; exact Or.inl hv.symm
        | some w => rw [hcg] at hv; exact Or.inr (congrArg some hv)
      · exact Or.inr hv
    have hB : Batch A cfg L tsdf es ⟨l, s.open_, s.raise, s.updated⟩ := by
      refine ⟨hR, B.raise, ?_, ?_⟩
      · intro g v hv
        rcases hold g v hv with h | h
        · exact Or.inl h
        · exact B.seeds g v h
      · intro g v hv hq
        rcases hold g v hv with h | h
        · rw [h] at hq; cases hq
        · exact B.flag g v h hq
    obtain ⟨s', a1, es', a2, a3⟩ := foldlM_range (f := tsdfVoxel A cfg false i b)
      (P := fun _ s1 => ∃ es1, Batch A cfg L tsdf es1 s1 ∧ Frame ⟨l, s.open_, s.raise, s.updated⟩ s1)
      b.voxels.length (by
        rintro k s1 hk ⟨es1, r1, f1⟩
        have c1 : s1.layer.cfg.vps = s.layer.cfg.vps := by rw [f1.cfg, lcfg]
        have al : Allocated s1.layer i := by rw [allocated_iff_status, f1.status, ← allocated_iff_status]; exact lall
        obtain ⟨t, v, t1, t2, t3, t4, t5⟩ := tsdf_linear T.wf hb hk
        rw [T.vps, ← c1] at t3 t5
        unfold tsdfVoxel
        simp only [t1, t2, Outcome.bind_ok]
        by_cases hw : t.weight < cfg.minWeight
        · rw [if_pos hw]
          obtain ⟨s2, b1, b2, b3⟩ := crustVoxel_batch F r1 al t3 t5 hw
          exact ⟨s2, b1, es1, b2, f1.trans b3⟩
        · rw [if_neg hw]
          obtain ⟨s2, es2, b1, b2, b3⟩ := copyVoxel_batch F hd r1 al t3 t5 hw (T.vals _ _ t5)
          exact ⟨s2, b1, es2, b2, f1.trans b3⟩)
      ⟨l, s.open_, s.raise, s.updated⟩ ⟨es, hB, Frame.refl _⟩
    exact ⟨s', es', a1, a2, a3.cfg.trans lcfg⟩

theorem tsdfBlocks_batch (F : CopyFits A cfg L) (hd : 0 < cfg.defaultDistance) (blocks : List Idx) :
    ∀ (es : List (ℕ × Idx)) (s : State), Batch A cfg L tsdf es s → TsdfFits A cfg L s.layer.cfg.vps tsdf →
    ∃ s' es', blocks.foldlM (tsdfBlock A cfg false tsdf) s = .ok s' ∧ Batch A cfg L tsdf es' s' := by
  induction blocks with
  | nil => intro es s B _; exact ⟨s, es, rfl, B⟩
  | cons i is ih =>
    intro es s B T
    obtain ⟨s1, es1, h1, h2, h3⟩ := tsdfBlock_batch F hd B T i
    obtain ⟨s2, es2, h4, h5⟩ := ih es1 s1 h2 (by rw [h3]; exact T)
    exact ⟨s2, es2, by rw [List.foldlM_cons, h1]; exact h4, h5⟩

/-- The content after the copy of a batch update. -/
theorem copied_batch (F : CopyFits A cfg L) (hd : 0 < cfg.defaultDistance) {s : State} (B : Batch A cfg L tsdf es s)
    (hempty : ∀ g, content s.layer g = none) (T : TsdfFits A cfg L s.layer.cfg.vps tsdf) {blocks : List Idx}
    (hall : ∀ i, Allocated tsdf i → i ∈ blocks) :
    ∃ s' es', blocks.foldlM (tsdfBlock A cfg false tsdf) s = .ok s' ∧ Batch A cfg L tsdf es' s' ∧ BlockFrame s s' ∧
      ∀ g, content s'.layer g = (content tsdf g).map (batchSeed cfg) := by
  obtain ⟨s1, es1, a1, a2, a3, -, a5, a6⟩ := tsdfBlocks_ok F (tsdf := tsdf) false
    (fun t _ y => (cfg.minWeight ≤ t.weight ∨ cfg.addOccupiedCrust = true) → y.observed = true)
    (by
      intro t x y h ht
      unfold VoxelCopied at h
      split_ifs at h with h1 h2
      · rw [h]
      · rcases ht with ht | ht
        · exact absurd ht (not_le.2 h1)
        · simp [ht] at h2
      · exact h.observed) (fun _ _ _ _ _ h => h) blocks es s B.ready T
  obtain ⟨s2, es2, b1, b2⟩ := tsdfBlocks_batch F hd blocks es s B T
  have e : s2 = s1 := Outcome.ok.inj (b1.symm.trans a1)
  subst e
  refine ⟨s2, es2, b1, b2, a3, ?_⟩
  intro g
  have hiff : Allocated tsdf (blockOf s.layer.cfg.vps g) ↔ (content tsdf g).isSome = true := by
    rw [content_isSome T.wf, T.vps]
    rfl
  by_cases hg : Allocated tsdf (blockOf s.layer.cfg.vps g)
  · obtain ⟨t, y, t1, t2, t3⟩ := a6 g (hall _ hg) hg
    rw [t1, t2]
    simp only [Option.map_some, Option.some.injEq]
    rcases b2.seeds g y t2 with h | ⟨τ, h1, h2⟩
    · have hn : ¬ (cfg.minWeight ≤ t.weight ∨ cfg.addOccupiedCrust = true) := by
        intro hh
        have := t3 hh
        rw [h] at this
        cases this
      rw [not_or, not_le] at hn
      rw [h]
      unfold batchSeed
      rw [if_pos hn.1, if_neg hn.2]
    · rw [t1] at h1
      injection h1 with h1
      rw [h2, h1]
  · rw [a5 g fun h => hg h.2, hempty]
    rw [hiff] at hg
    rw [Option.not_isSome_iff_eq_none.1 hg]
    rfl

/-- The invariant holds after the copy. -/
theorem inv_copied (hmin : 0 < cfg.minDistance) (hd : 0 < cfg.defaultDistance) (hmax : cfg.maxDistance ≤ cfg.defaultDistance)
    {s : State} (B : Batch A cfg L tsdf es s) (hc : ∀ g, content s.layer g = (content tsdf g).map (batchSeed cfg)) :
    Inv A cfg size tsdf (fun _ _ => False) (content s.layer) es := by
  have v1 : (viewOf cfg).minWeight = cfg.minWeight := rfl
  have v2 : (viewOf cfg).width = cfg.minDistance := rfl
  have v3 : (viewOf cfg).crust = cfg.addOccupiedCrust := rfl
  have hband : ∀ g t, InBand (viewOf cfg) tsdf g t → content s.layer g = some ⟨t, true, false, true, true, 0⟩ := by
    rintro g t ⟨τ, h1, h2, rfl, h4⟩
    rw [v1] at h2
    rw [v2] at h4
    rw [hc, h1]
    simp only [Option.map_some, Option.some.injEq]
    unfold batchSeed
    rw [if_neg (not_lt.2 h2), if_pos h4]
  have hfree : ∀ out g, FreeOn (viewOf cfg) tsdf out g → ∃ d h, content s.layer g = some ⟨d, true, h, false, false, 0⟩ ∧ OnSide out d ∧
      |d| = cfg.defaultDistance := by
    rintro out g (⟨τ, h1, h2, h3, h4⟩ | ⟨rfl, h2, τ, h3, h4⟩)
    · rw [v1] at h2
      rw [v2] at h3
      refine ⟨withSign τ.distance cfg.defaultDistance, false, ?_, ?_, ?_⟩
      · rw [hc, h1]
        simp only [Option.map_some, Option.some.injEq]
        unfold batchSeed
        rw [if_neg (not_lt.2 h2), if_neg (not_lt.2 h3)]
      all_goals
        have h0 : τ.distance ≠ 0 := by
          intro e
          rw [e, abs_zero] at h3
          exact absurd hmin (not_lt.2 h3)
        unfold withSign
      · cases out
        · have : τ.distance < 0 := lt_of_le_of_ne h4 h0
          rw [signum_neg this]
          show _ ≤ _
          push_cast
          linarith
        · rw [signum_pos h4]
          show _ < _
          push_cast
          linarith
      · rcases lt_or_gt_of_ne h0 with h | h
        · rw [signum_neg h]
          push_cast
          rw [neg_one_mul, abs_neg, abs_of_pos hd]
        · rw [signum_pos h]
          push_cast
          rw [one_mul, abs_of_pos hd]
    · rw [v1] at h4
      rw [v3] at h2
      refine ⟨-cfg.defaultDistance, true, ?_, ?_, ?_⟩
      · rw [hc, h3]
        simp only [Option.map_some, Option.some.injEq]
        unfold batchSeed
        rw [if_pos h4, if_pos h2]
      · show _ ≤ _
        linarith
      · rw [abs_neg, abs_of_pos hd]
  have hknown : ∀ g v, content s.layer g = some v → v.observed = true → (∃ t, InBand (viewOf cfg) tsdf g t) ∨ ∃ out, FreeOn (viewOf cfg) tsdf out g := by
    intro g v hv ho
    rw [hc] at hv
    obtain ⟨τ, h1, h2⟩ := Option.map_eq_some_iff.1 hv
    unfold batchSeed at h2
    split_ifs at h2 with c1 c2 c3
    · exact Or.inr ⟨false, Or.inr ⟨rfl, c2, τ, h1, c1⟩⟩
    · rw [← h2] at ho; cases ho
    · exact Or.inl ⟨_, τ, h1, not_lt.1 c1, rfl, c3⟩
    · rcases le_or_gt τ.distance 0 with h | h
      · exact Or.inr ⟨false, Or.inl ⟨τ, h1, not_lt.1 c1, not_lt.1 c3, h⟩⟩
      · exact Or.inr ⟨true, Or.inl ⟨τ, h1, not_lt.1 c1, not_lt.1 c3, h⟩⟩
  refine ⟨fun g t ht => ⟨true, hband g t ht⟩, ?_, hknown, B.flag, ?_⟩
  · intro out g hg
    obtain ⟨d, h, h1, h2, h3⟩ := hfree out g hg
    exact ⟨d, h, false, 0, h1, h2, h3.le, Or.inl ⟨h3, rfl⟩⟩
  · intro g v hv ho hd' hes
    exfalso
    rcases hknown g v hv ho with ⟨t, ht⟩ | ⟨out, hf⟩
    · obtain ⟨e, h1, h2⟩ := B.flag g _ (hband g t ht) rfl
      exact hes e h1 h2
    · obtain ⟨d, h, h1, -, h3⟩ := hfree out g hf
      rw [hv] at h1
      injection h1 with h1
      rw [h1] at hd'
      have : |d| < cfg.maxDistance := hd'
      linarith

/-- A batch update, with its invariant. -/
theorem updateBatch_inv (F : CopyFits A cfg L) (hq : cfg.fullEuclidean = false) (hmin : 0 < cfg.minDistance)
    (hd : 0 < cfg.defaultDistance) (hmax : cfg.maxDistance ≤ cfg.defaultDistance) (sep : Separated (viewOf cfg) tsdf)
    {s : State} (h : Ready A L [] s) (hraise : s.raise = []) (T : TsdfFits A cfg L s.layer.cfg.vps tsdf) (set : List Idx → List Idx) :
    ∃ N s', (∀ fuel, N ≤ fuel → updateBatch A cfg fuel set tsdf s = .ok (some s')) ∧
      (∀ g, (content s'.layer g).isSome = (content tsdf g).isSome) ∧
      Inv A cfg s.layer.cfg.voxelSize tsdf (fun _ _ => False) (content s'.layer) [] := by
  have hempty : ∀ g, content (⟨s.layer.cfg, []⟩ : VLayer EVoxel) g = none := fun g => by simp [content]
  have h' : Ready A L [] ⟨⟨s.layer.cfg, []⟩, s.open_, s.raise, []⟩ := by
    obtain ⟨S, G, -⟩ := h
    refine ⟨∅, ⟨⟨G.wf.size_pos, G.wf.side_pos, G.wf.side_le, by simp⟩, G.power, ?_, by simp, ?_, G.queue, by simp⟩, by simp [hraise]⟩
    · intro g; simp [content]
    · intro g v hv; simp [content] at hv
  have B0 : Batch A cfg L tsdf [] ⟨⟨s.layer.cfg, []⟩, s.open_, s.raise, []⟩ :=
    ⟨h', hraise, fun g v hv => absurd hv (by rw [hempty]; simp), fun g v hv => absurd hv (by rw [hempty]; simp)⟩
  obtain ⟨s1, es1, a1, a2, a3, a4⟩ := copied_batch F hd B0 hempty T (blocks := tsdf.blocks.map (·.1) ++ set s.updated) (by
    intro i hi
    refine List.mem_append_left _ ?_
    have := List.lookup_isSome_iff.1 hi
    simpa using this)
  obtain ⟨S, G, -⟩ := a2.ready
  have hsz : s1.layer.cfg.voxelSize = s.layer.cfg.voxelSize := by rw [a3.cfg]
  obtain ⟨N, s2, b1, b2, -, b4⟩ := processOpen_batch F.toFits hq hmax sep G (inv_copied hmin hd hmax a2 a4)
  refine ⟨N + 1, s2, ?_, ?_, hsz ▸ b4⟩
  · intro fuel hf
    unfold updateBatch updateFromTsdfBlocks
    rw [show Outcome.check (decide (tsdf.cfg.vps = ({ s.layer with blocks := [] } : VLayer EVoxel).cfg.vps)) = .ok () by
      simp [Outcome.check, T.vps]]
    simp only [Outcome.bind_ok]
    have a1' : (tsdf.blocks.map (·.1) ++ set s.updated).foldlM (tsdfBlock A cfg false tsdf)
        { s with layer := { s.layer with blocks := [] }, updated := [] } = .ok s1 := a1
    rw [a1']
    simp only [Outcome.bind_ok]
    have hr : processRaise cfg fuel s1 = .ok (some s1) := by
      obtain ⟨m, rfl⟩ : ∃ m, fuel = m + 1 := ⟨fuel - 1, by omega⟩
      unfold processRaise
      rw [a2.raise]
    rw [hr]
    simp only [Outcome.bind_ok]
    exact b1 fuel (by omega)
  · intro g
    have e1 : (content tsdf g).isSome = (content s1.layer g).isSome := by rw [a4]; simp
    rw [e1, Bool.eq_iff_iff, b2.dom, G.dom]

end

end Vox.Esdf
