/-
Properties C63 and C64: comparing layers and centering the blocks of a layer.
-/
import Verif.Lemmas.LayerUtils
import Verif.Lemmas.Center

namespace Vox.LayerUtils

open Layer Grid Spec

variable {V : Type}

/-! ### Voxels -/

theorem closeFl_iff (A : Arith) (x y : Fl) : closeFl A x y = true ↔ Near A kTolerance x y := by
  unfold closeFl Near Arith.sub
  constructor
  · intro h
    cases x with
    | fin p =>
      cases y with
      | fin q =>
        simp only [Fl.neg, Arith.add, ← sub_eq_add_neg] at h
        refine ⟨p, q, ?_⟩
        cases hd : A.rnd (p - q) with
        | fin d =>
          rw [hd] at h
          exact ⟨d, rfl, rfl, rfl, by simpa [Fl.abs, Fl.lt] using h⟩
        | _ => rw [hd] at h; simp [Fl.abs, Fl.lt] at h
      | _ => simp [Fl.neg, Arith.add, Fl.abs, Fl.lt] at h
    | _ => cases y <;> simp [Fl.neg, Arith.add, Fl.abs, Fl.lt] at h
  · rintro ⟨p, q, d, rfl, rfl, hd, hlt⟩
    simp only [Fl.neg, Arith.add, ← sub_eq_add_neg, hd]
    simpa [Fl.abs, Fl.lt] using hlt

theorem sameTsdf_spec (A : Arith) (a b : TsdfVoxel Fl) : ∃ r, sameTsdf A a b = .ok r ∧ (r = true ↔ AgreeTsdf (Near A kTolerance) a b) := by
  refine ⟨_, rfl, ?_⟩
  simp only [Bool.and_eq_true, closeFl_iff, beq_iff_eq]
  constructor
  · rintro ⟨⟨⟨⟨⟨h1, h2⟩, h3⟩, h4⟩, h5⟩, h6⟩
    refine ⟨h1, h2, ?_⟩
    obtain ⟨_, _, c⟩ := a
    obtain ⟨_, _, c'⟩ := b
    obtain ⟨r, g, b, a⟩ := c
    obtain ⟨r', g', b', a'⟩ := c'
    simp only at h3 h4 h5 h6
    rw [h3, h4, h5, h6]
  · rintro ⟨h1, h2, h3⟩
    rw [h3]
    exact ⟨⟨⟨⟨⟨h1, h2⟩, rfl⟩, rfl⟩, rfl⟩, rfl⟩

theorem sameEsdf_spec (A : Arith) (a b : EsdfVoxel Fl) : ∃ r, sameEsdf A a b = .ok r ∧ (r = true ↔ AgreeEsdf (Near A kTolerance) a b) := by
  refine ⟨_, rfl, ?_⟩
  simp only [Bool.and_eq_true, closeFl_iff, beq_iff_eq]
  constructor
  · rintro ⟨⟨⟨⟨⟨⟨h1, h2⟩, h3⟩, h4⟩, h5⟩, h6⟩, h7⟩
    exact ⟨h1, h2, h3, h4, Vec3.ext h5 h6 h7⟩
  · rintro ⟨h1, h2, h3, h4, h5⟩
    rw [h5]
    exact ⟨⟨⟨⟨⟨⟨h1, h2⟩, h3⟩, h4⟩, rfl⟩, rfl⟩, rfl⟩

theorem sameOcc_spec (A : Arith) (a b : OccVoxel Fl) : ∃ r, sameOcc A a b = .ok r ∧ (r = true ↔ AgreeOcc (Near A kTolerance) a b) := by
  refine ⟨_, rfl, ?_⟩
  simp only [Bool.and_eq_true, closeFl_iff, beq_iff_eq]
  exact ⟨fun h => ⟨h.1, h.2⟩, fun h => ⟨h.1, h.2⟩⟩

/-- Nearness in terms of the values: it bounds the difference by every float at or above the tolerance, and holds if the difference
is at most some float below the tolerance. -/
theorem C63_near {A : Arith} (hf : Arith.Faithful A) (ho : OddRounding A) (p q : ℚ) :
    (Near A kTolerance (.fin p) (.fin q) → ∀ t, kTolerance ≤ t → A.rnd t = .fin t → |p - q| < t) ∧
    ∀ t, t < kTolerance → A.rnd t = .fin t → |p - q| ≤ t → Near A kTolerance (.fin p) (.fin q) := by
  have hneg : ∀ t, A.rnd t = .fin t → A.rnd (-t) = .fin (-t) := fun t h => by rw [ho, h]; rfl
  constructor
  · rintro ⟨p', q', d, hp, hq, hd, hlt⟩ t ht hr
    obtain rfl := Fl.fin.inj hp
    obtain rfl := Fl.fin.inj hq
    by_contra hc
    rw [not_lt] at hc
    rcases le_abs.1 hc with h | h
    · have := hf.mono _ _ h
      rw [hr, hd] at this
      have hle : t ≤ d := by simpa [Fl.le] using this
      have := le_abs_self d
      linarith
    · have := hf.mono (p - q) (-t) (by linarith)
      rw [hneg t hr, hd] at this
      have hle : d ≤ -t := by simpa [Fl.le] using this
      have := neg_abs_le d
      linarith
  · intro t ht hr h
    obtain ⟨h1, h2⟩ := abs_le.1 h
    have m1 := hf.mono _ _ h1
    have m2 := hf.mono _ _ h2
    rw [hneg t hr] at m1
    rw [hr] at m2
    cases hd : A.rnd (p - q) with
    | fin d =>
      rw [hd] at m1 m2
      refine ⟨p, q, d, rfl, rfl, hd, ?_⟩
      simp only [Fl.le, decide_eq_true_eq] at m1 m2
      exact lt_of_le_of_lt (abs_le.2 ⟨m1, m2⟩) ht
    | nan => rw [hd] at m1; simp [Fl.le] at m1
    | ninf => rw [hd] at m1; simp [Fl.le] at m1
    | pinf => rw [hd] at m2; simp [Fl.le] at m2

example : Near (Arith.exact fun _ => .nan) kTolerance (.fin 1) (.fin 1) ∧ ¬ Near (Arith.exact fun _ => .nan) kTolerance (.fin 1) (.fin 2) := by
  rw [← closeFl_iff, ← closeFl_iff]
  decide +kernel

theorem near_self {A : Arith} (hf : Arith.Faithful A) (x : Fl) : Near A kTolerance x x ↔ IsFinite x := by
  constructor
  · rintro ⟨p, _, _, h, _⟩
    exact ⟨p, h⟩
  · rintro ⟨p, rfl⟩
    exact ⟨p, p, 0, rfl, rfl, by rw [sub_self]; exact hf.zero, by norm_num [kTolerance]⟩

theorem near_symm {A : Arith} (ho : OddRounding A) (x y : Fl) : Near A kTolerance x y ↔ Near A kTolerance y x := by
  have : ∀ {x y}, Near A kTolerance x y → Near A kTolerance y x := by
    rintro x y ⟨p, q, d, rfl, rfl, hd, hlt⟩
    refine ⟨q, p, -d, rfl, rfl, ?_, by rwa [abs_neg]⟩
    rw [← neg_sub p q, ho, hd]
    rfl
  exact ⟨this, this⟩

/-! ### Layers -/

/-- **C63**, the comparison as a whole. For two layers of the same side: the comparison never aborts or reads out of bounds, and it
answers true exactly if the grids are less than the tolerance apart, the blocks are the same and the voxels agree position by
position (as the voxel comparison decides). -/
theorem C63_iff (z : Sizes) {same : V → V → Outcome Bool} {R : V → V → Prop} (hs : ∀ x y, ∃ r, same x y = .ok r ∧ (r = true ↔ R x y))
    {A B : VLayer V} (wa : WellFormed A) (wb : WellFormed B) (hv : A.cfg.vps = B.cfg.vps)
    (na : (A.blocks.map (·.1)).Nodup) (nb : (B.blocks.map (·.1)).Nodup) :
    ∃ r, isSameLayer z same A B = .ok r ∧ (r = true ↔ CloseGrids kTolerance A B ∧ SameMap R A B) := by
  obtain ⟨r1, h1, h2⟩ := sameBlocks_ok hs wa wb hv (B.blocks.map (·.1)) (A.blocks.map (·.1)) (fun i h h' => ⟨h, h'⟩) (sameHeader A B)
  have spec : ∀ r, (r = true ↔ sameHeader A B = true ∧
      (∀ i ∈ A.blocks.map (·.1), i ∈ B.blocks.map (·.1) ∧ ∀ a b, block? A i = some a → block? B i = some b → BlockAgree R a b) ∧
      (∀ i ∈ B.blocks.map (·.1), i ∈ A.blocks.map (·.1) ∧ ∀ a b, block? A i = some a → block? B i = some b → BlockAgree R a b) ∧
      layerMemory z A = layerMemory z B) → (r = true ↔ CloseGrids kTolerance A B ∧ SameMap R A B) := by
    intro r hr
    rw [hr]
    have key := blocks_content (R := R) wa wb hv
    have hbk : ∀ {i a b}, block? A i = some a → block? B i = some b → (BlockAgree R a b ↔
        (|A.cfg.voxelSize - B.cfg.voxelSize| < kTolerance ∧ |A.cfg.voxelSize * A.cfg.vps - B.cfg.voxelSize * B.cfg.vps| < kTolerance ∧
        i.All (fun (c : ℤ) => |c * (A.cfg.voxelSize * A.cfg.vps) - c * (B.cfg.voxelSize * B.cfg.vps)| < kTolerance)) ∧
        ∀ (k : ℕ) x y, a.voxels[k]? = some x → b.voxels[k]? = some y → R x y) := by
      intro i a b ha hb
      obtain ⟨a1, a2, a3, _⟩ := wa.block _ _ ha
      obtain ⟨b1, b2, b3, _⟩ := wb.block _ _ hb
      constructor
      · rintro ⟨c1, c2, c3, c4, c5, c6⟩
        rw [a2, b2] at c1
        rw [a1, b1, a2, b2, mul_comm, mul_comm (B.cfg.vps : ℚ)] at c2
        rw [a3, b3] at c3 c4 c5
        exact ⟨⟨c1, c2, c3, c4, c5⟩, c6⟩
      · rintro ⟨⟨c1, c2, c3, c4, c5⟩, c6⟩
        refine ⟨by rw [a2, b2]; exact c1, ?_, by rw [a3, b3]; exact c3, by rw [a3, b3]; exact c4, by rw [a3, b3]; exact c5, c6⟩
        rw [a1, b1, a2, b2, mul_comm, mul_comm (B.cfg.vps : ℚ)]
        exact c2
    have get : ∀ {l : VLayer V} {i}, i ∈ l.blocks.map (·.1) → ∃ b, block? l i = some b := fun h => by
      obtain ⟨b, _, hb⟩ := blockByIndex_ok h
      exact ⟨b, hb⟩
    have mem : ∀ {l : VLayer V} {i b}, block? l i = some b → i ∈ l.blocks.map (·.1) := fun h => by
      rw [← allocated_iff_mem]
      show (block? _ _).isSome = true
      rw [h]; rfl
    constructor
    · rintro ⟨hh, hA, hB, _⟩
      simp only [sameHeader, Bool.and_eq_true, closeQ, decide_eq_true_eq, beq_iff_eq, Cfg.blockSize] at hh
      refine ⟨⟨hh.1.1.1, of_decide_eq_true hh.1.1.2, ?_⟩, ?_, ?_⟩
      · intro i hi
        rw [allocated_iff_mem] at hi
        obtain ⟨a, ha⟩ := get hi
        obtain ⟨b, hb⟩ := get (hA i hi).1
        exact ((hbk ha hb).1 ((hA i hi).2 a b ha hb)).1.2.2
      · intro i
        rw [allocated_iff_mem, allocated_iff_mem]
        exact ⟨fun h => (hA i h).1, fun h => (hB i h).1⟩
      · refine key.1 fun i a b ha hb => ?_
        exact ((hbk ha hb).1 ((hA i (mem ha)).2 a b ha hb)).2
    · rintro ⟨⟨g1, g2, g3⟩, m1, m2⟩
      have hm : ∀ i, i ∈ A.blocks.map (·.1) ↔ i ∈ B.blocks.map (·.1) := fun i => by
        rw [← allocated_iff_mem, ← allocated_iff_mem]; exact m1 i
      have hlen : A.blocks.length = B.blocks.length := by
        have := ((List.perm_ext_iff_of_nodup na nb).2 hm).length_eq
        simpa using this
      have hb : ∀ i a b, block? A i = some a → block? B i = some b → BlockAgree R a b := fun i a b ha hb =>
        (hbk ha hb).2 ⟨⟨g1, g2, g3 i (allocated_iff_mem.2 (mem ha))⟩, key.2 m2 i a b ha hb⟩
      refine ⟨?_, fun i hi => ⟨(hm i).1 hi, hb i⟩, fun i hi => ⟨(hm i).2 hi, hb i⟩, layerMemory_eq z wa wb hv hlen⟩
      simp only [sameHeader, Bool.and_eq_true, closeQ, decide_eq_true_eq, beq_iff_eq, Cfg.blockSize]
      exact ⟨⟨⟨g1, decide_eq_true g2⟩, hv⟩, hlen⟩
  unfold isSameLayer
  rw [h1]
  simp only [Outcome.bind_ok]
  cases r1 with
  | none =>
    refine ⟨false, rfl, spec false ?_⟩
    constructor
    · intro h; cases h
    · rintro ⟨a, b, _⟩
      have := h2.2 ⟨a, b⟩
      cases this
  | some r1 =>
    obtain ⟨r2, h3, h4⟩ := sameBlocks_ok hs wa wb hv (A.blocks.map (·.1)) (B.blocks.map (·.1)) (fun i h h' => ⟨h', h⟩) r1
    simp only [h3, Outcome.bind_ok]
    simp only [Option.some.injEq] at h2
    cases r2 with
    | none =>
      refine ⟨false, rfl, spec false ?_⟩
      constructor
      · intro h; cases h
      · rintro ⟨a, b, c, _⟩
        have := h4.2 ⟨h2.2 ⟨a, b⟩, c⟩
        cases this
    | some r2 =>
      refine ⟨_, rfl, spec _ ?_⟩
      simp only [Option.some.injEq] at h4
      rw [Bool.and_eq_true, h4, h2, beq_iff_eq]
      tauto

/-- A one-block layer with side `n` and voxel size 1/2, every voxel holding `v`. -/
def exOne (n : ℕ) (i : Idx) (v : V) : VLayer V :=
  ⟨⟨1 / 2, n⟩, [(i, ⟨n, 1 / 2, ⟨i.x * (1 / 2 * n), i.y * (1 / 2 * n), i.z * (1 / 2 * n)⟩, false, Flags.setAll, List.replicate (n * n * n) v⟩)]⟩

theorem exOne_wf {n : ℕ} (h0 : 0 < n) (h1 : n ≤ 1290) (i : Idx) (v : V) : WellFormed (exOne n i v) := by
  refine ⟨by norm_num [exOne], h0, h1, ?_⟩
  intro j b h
  unfold exOne at h
  by_cases hj : j = i
  · subst hj
    simp only [List.lookup_cons, BEq.rfl, Option.some.injEq] at h
    subst h
    exact ⟨rfl, rfl, rfl, by simp [exOne]⟩
  · have : (j == i) = false := by simpa using hj
    simp [List.lookup_cons, this] at h

theorem exOne_nodup (n : ℕ) (i : Idx) (v : V) : ((exOne n i v).blocks.map (·.1)).Nodup := by simp [exOne]

def exZ : Sizes := ⟨20, 49, 12⟩
def exT (d : Fl) : TsdfVoxel Fl := ⟨d, .fin 1, ⟨10#8, 20#8, 30#8, 255#8⟩⟩
def exE (h : Bool) : EsdfVoxel Fl := ⟨.fin (1 / 4), true, h, false, true, ⟨1, 0, -1⟩⟩
def exAr : Arith := Arith.exact fun _ => .nan

theorem exAr_odd : OddRounding exAr := fun q => by simp [exAr, Arith.exact, Fl.neg]

/-- The hypotheses of `C63_iff` are met, and both answers occur. -/
example : WellFormed (exOne 2 ⟨-3, 0, 5⟩ (exT (.fin 1))) ∧ ((exOne 2 ⟨-3, 0, 5⟩ (exT (.fin 1))).blocks.map (·.1)).Nodup ∧
    isSameLayer exZ (sameTsdf exAr) (exOne 2 ⟨-3, 0, 5⟩ (exT (.fin 1))) (exOne 2 ⟨-3, 0, 5⟩ (exT (.fin 1))) = .ok true ∧
    isSameLayer exZ (sameTsdf exAr) (exOne 2 ⟨-3, 0, 5⟩ (exT (.fin 1))) (exOne 2 ⟨-3, 0, 5⟩ (exT (.fin 2))) = .ok false ∧
    isSameLayer exZ (sameTsdf exAr) (exOne 2 ⟨-3, 0, 5⟩ (exT (.fin 1))) (exOne 2 ⟨-3, 0, 4⟩ (exT (.fin 1))) = .ok false :=
  ⟨exOne_wf (by decide) (by decide) _ _, exOne_nodup _ _ _, by decide +kernel, by decide +kernel, by decide +kernel⟩

theorem closeGrids_self (A B : VLayer V) (h : A.cfg = B.cfg) : CloseGrids kTolerance A B := by
  have h0 : (0 : ℚ) < kTolerance := by norm_num [kTolerance]
  refine ⟨by rw [h, sub_self, abs_zero]; exact h0, by rw [h, sub_self, abs_zero]; exact h0, fun i _ => ?_⟩
  rw [h]
  exact ⟨by simpa using h0, by simpa using h0, by simpa using h0⟩

/-- **C63** for TSDF layers of the same configuration: true exactly if the blocks are the same and at every position distance and
weight are near each other and the colours are equal. -/
theorem C63_tsdf_partial (z : Sizes) (ar : Arith) {A B : VLayer (TsdfVoxel Fl)} (wa : WellFormed A) (wb : WellFormed B) (hc : A.cfg = B.cfg)
    (na : (A.blocks.map (·.1)).Nodup) (nb : (B.blocks.map (·.1)).Nodup) :
    ∃ r, isSameLayer z (sameTsdf ar) A B = .ok r ∧ (r = true ↔ SameMap (AgreeTsdf (Near ar kTolerance)) A B) := by
  obtain ⟨r, h1, h2⟩ := C63_iff z (sameTsdf_spec ar) wa wb (by rw [hc]) na nb
  exact ⟨r, h1, by rw [h2]; exact ⟨fun h => h.2, fun h => ⟨closeGrids_self A B hc, h⟩⟩⟩

/-- **C63** for occupancy layers of the same configuration. -/
theorem C63_occ_partial (z : Sizes) (ar : Arith) {A B : VLayer (OccVoxel Fl)} (wa : WellFormed A) (wb : WellFormed B) (hc : A.cfg = B.cfg)
    (na : (A.blocks.map (·.1)).Nodup) (nb : (B.blocks.map (·.1)).Nodup) :
    ∃ r, isSameLayer z (sameOcc ar) A B = .ok r ∧ (r = true ↔ SameMap (AgreeOcc (Near ar kTolerance)) A B) := by
  obtain ⟨r, h1, h2⟩ := C63_iff z (sameOcc_spec ar) wa wb (by rw [hc]) na nb
  exact ⟨r, h1, by rw [h2]; exact ⟨fun h => h.2, fun h => ⟨closeGrids_self A B hc, h⟩⟩⟩

/-- **C63** for ESDF layers of the same configuration, up to the hallucinated flag, which is not compared (`C63_hallucinated`). -/
theorem C63_esdf_partial (z : Sizes) (ar : Arith) {A B : VLayer (EsdfVoxel Fl)} (wa : WellFormed A) (wb : WellFormed B) (hc : A.cfg = B.cfg)
    (na : (A.blocks.map (·.1)).Nodup) (nb : (B.blocks.map (·.1)).Nodup) :
    ∃ r, isSameLayer z (sameEsdf ar) A B = .ok r ∧ (r = true ↔ SameMap (AgreeEsdf (Near ar kTolerance)) A B) := by
  obtain ⟨r, h1, h2⟩ := C63_iff z (sameEsdf_spec ar) wa wb (by rw [hc]) na nb
  exact ⟨r, h1, by rw [h2]; exact ⟨fun h => h.2, fun h => ⟨closeGrids_self A B hc, h⟩⟩⟩

example : WellFormed (exOne 2 ⟨0, 0, 0⟩ (exE true)) ∧ ((exOne 2 ⟨0, 0, 0⟩ (exE true)).blocks.map (·.1)).Nodup ∧
    WellFormed (exOne 2 ⟨0, 0, 0⟩ (⟨.fin 1, true⟩ : OccVoxel Fl)) :=
  ⟨exOne_wf (by decide) (by decide) _ _, exOne_nodup _ _ _, exOne_wf (by decide) (by decide) _ _⟩

/-- **C63**, a layer with a configuration at least the tolerance away, or one more or one other block, or a voxel that does not agree, is
told apart. -/
theorem C63_detects (z : Sizes) {same : V → V → Outcome Bool} {R : V → V → Prop} (hs : ∀ x y, ∃ r, same x y = .ok r ∧ (r = true ↔ R x y))
    {A B : VLayer V} (wa : WellFormed A) (wb : WellFormed B) (hv : A.cfg.vps = B.cfg.vps)
    (na : (A.blocks.map (·.1)).Nodup) (nb : (B.blocks.map (·.1)).Nodup)
    (hd : kTolerance ≤ |A.cfg.voxelSize - B.cfg.voxelSize| ∨ (∃ i, Allocated A i ∧ ¬ Allocated B i) ∨ (∃ i, Allocated B i ∧ ¬ Allocated A i) ∨
      ∃ g a b, content A g = some a ∧ content B g = some b ∧ ¬ R a b) : isSameLayer z same A B = .ok false := by
  obtain ⟨r, h1, h2⟩ := C63_iff z hs wa wb hv na nb
  rw [h1]
  cases r with
  | false => rfl
  | true =>
    obtain ⟨g, m⟩ := h2.1 rfl
    rcases hd with h | ⟨i, hi, hj⟩ | ⟨i, hi, hj⟩ | ⟨g, a, b, ha, hb, hn⟩
    · exact absurd g.voxelSize (not_lt.2 h)
    · exact absurd ((m.blocks i).1 hi) hj
    · exact absurd ((m.blocks i).2 hi) hj
    · exact absurd (m.voxels g a b ha hb) hn

example : kTolerance ≤ |(⟨⟨1 / 2, 2⟩, []⟩ : VLayer ℕ).cfg.voxelSize - (⟨⟨1 / 4, 2⟩, []⟩ : VLayer ℕ).cfg.voxelSize| := by
  norm_num [kTolerance, abs_of_pos]

/-- **C63**, symmetry: with a symmetric voxel comparison the layers may be exchanged. -/
theorem C63_symmetric (z : Sizes) {same : V → V → Outcome Bool} {R : V → V → Prop} (hs : ∀ x y, ∃ r, same x y = .ok r ∧ (r = true ↔ R x y))
    (hR : ∀ x y, R x y ↔ R y x) {A B : VLayer V} (wa : WellFormed A) (wb : WellFormed B) (hv : A.cfg.vps = B.cfg.vps)
    (na : (A.blocks.map (·.1)).Nodup) (nb : (B.blocks.map (·.1)).Nodup) : isSameLayer z same A B = isSameLayer z same B A := by
  obtain ⟨r, h1, h2⟩ := C63_iff z hs wa wb hv na nb
  obtain ⟨r', h3, h4⟩ := C63_iff z hs wb wa hv.symm nb na
  have sw : ∀ {A B : VLayer V}, CloseGrids kTolerance A B ∧ SameMap R A B → CloseGrids kTolerance B A ∧ SameMap R B A := by
    rintro A B ⟨⟨g1, g2, g3⟩, m1, m2⟩
    refine ⟨⟨by rw [abs_sub_comm]; exact g1, by rw [abs_sub_comm]; exact g2, ?_⟩, fun i => (m1 i).symm, fun g a b ha hb => (hR _ _).1 (m2 g b a hb ha)⟩
    intro i hi
    obtain ⟨c1, c2, c3⟩ := g3 i ((m1 i).2 hi)
    exact ⟨lt_of_eq_of_lt (abs_sub_comm _ _) c1, lt_of_eq_of_lt (abs_sub_comm _ _) c2, lt_of_eq_of_lt (abs_sub_comm _ _) c3⟩
  have : r = r' := Bool.eq_iff_iff.2 (h2.trans ((show _ ↔ _ from ⟨sw, sw⟩).trans h4.symm))
  rw [h1, h3, this]

/-- The voxel comparisons are symmetric when rounding is. -/
theorem C63_voxel_symmetric {ar : Arith} (ho : OddRounding ar) :
    (∀ a b, AgreeTsdf (Near ar kTolerance) a b ↔ AgreeTsdf (Near ar kTolerance) b a) ∧
    (∀ a b, AgreeEsdf (Near ar kTolerance) a b ↔ AgreeEsdf (Near ar kTolerance) b a) ∧
    ∀ a b, AgreeOcc (Near ar kTolerance) a b ↔ AgreeOcc (Near ar kTolerance) b a := by
  have n := fun x y => (near_symm ho x y).1
  refine ⟨fun a b => ⟨fun h => ?_, fun h => ?_⟩, fun a b => ⟨fun h => ?_, fun h => ?_⟩, fun a b => ⟨fun h => ?_, fun h => ?_⟩⟩
  · exact ⟨n _ _ h.1, n _ _ h.2, h.3.symm⟩
  · exact ⟨n _ _ h.1, n _ _ h.2, h.3.symm⟩
  · exact ⟨n _ _ h.1, h.2.symm, h.3.symm, h.4.symm, h.5.symm⟩
  · exact ⟨n _ _ h.1, h.2.symm, h.3.symm, h.4.symm, h.5.symm⟩
  · exact ⟨n _ _ h.1, h.2.symm⟩
  · exact ⟨n _ _ h.1, h.2.symm⟩

example : OddRounding exAr ∧ Arith.Faithful exAr := ⟨exAr_odd, Arith.exact_faithful _⟩

/-- **C63**, reflexivity of the TSDF comparison: a layer is the same as itself exactly if all its distances and weights are finite. -/
theorem C63_reflexive_tsdf_partial (z : Sizes) {ar : Arith} (hf : Arith.Faithful ar) {A : VLayer (TsdfVoxel Fl)} (wa : WellFormed A)
    (na : (A.blocks.map (·.1)).Nodup) :
    ∃ r, isSameLayer z (sameTsdf ar) A A = .ok r ∧
      (r = true ↔ ∀ g v, content A g = some v → IsFinite v.distance ∧ IsFinite v.weight) := by
  obtain ⟨r, h1, h2⟩ := C63_tsdf_partial z ar wa wa rfl na na
  refine ⟨r, h1, h2.trans ⟨fun h g v hv => ?_, fun h => ⟨fun _ => Iff.rfl, fun g a b ha hb => ?_⟩⟩⟩
  · have := h.voxels g v v hv hv
    exact ⟨(near_self hf _).1 this.1, (near_self hf _).1 this.2⟩
  · rw [ha] at hb
    obtain rfl := Option.some.inj hb
    exact ⟨(near_self hf _).2 (h g a ha).1, (near_self hf _).2 (h g a ha).2, rfl⟩

/-- The same for ESDF layers. -/
theorem C63_reflexive_esdf_partial (z : Sizes) {ar : Arith} (hf : Arith.Faithful ar) {A : VLayer (EsdfVoxel Fl)} (wa : WellFormed A)
    (na : (A.blocks.map (·.1)).Nodup) :
    ∃ r, isSameLayer z (sameEsdf ar) A A = .ok r ∧ (r = true ↔ ∀ g v, content A g = some v → IsFinite v.distance) := by
  obtain ⟨r, h1, h2⟩ := C63_esdf_partial z ar wa wa rfl na na
  refine ⟨r, h1, h2.trans ⟨fun h g v hv => ?_, fun h => ⟨fun _ => Iff.rfl, fun g a b ha hb => ?_⟩⟩⟩
  · exact (near_self hf _).1 (h.voxels g v v hv hv).1
  · rw [ha] at hb
    obtain rfl := Option.some.inj hb
    exact ⟨(near_self hf _).2 (h g a ha), rfl, rfl, rfl, rfl⟩

/-- The same for occupancy layers. -/
theorem C63_reflexive_occ_partial (z : Sizes) {ar : Arith} (hf : Arith.Faithful ar) {A : VLayer (OccVoxel Fl)} (wa : WellFormed A)
    (na : (A.blocks.map (·.1)).Nodup) :
    ∃ r, isSameLayer z (sameOcc ar) A A = .ok r ∧ (r = true ↔ ∀ g v, content A g = some v → IsFinite v.probabilityLog) := by
  obtain ⟨r, h1, h2⟩ := C63_occ_partial z ar wa wa rfl na na
  refine ⟨r, h1, h2.trans ⟨fun h g v hv => ?_, fun h => ⟨fun _ => Iff.rfl, fun g a b ha hb => ?_⟩⟩⟩
  · exact (near_self hf _).1 (h.voxels g v v hv hv).1
  · rw [ha] at hb
    obtain rfl := Option.some.inj hb
    exact ⟨(near_self hf _).2 (h g a ha), rfl⟩

/-- **C63** is violated: ESDF layers differing in the hallucinated flag compare equal. -/
theorem C63_hallucinated : ∃ A B : VLayer (EsdfVoxel Fl), WellFormed A ∧ WellFormed B ∧ A.cfg = B.cfg ∧
    isSameLayer exZ (sameEsdf exAr) A B = .ok true ∧ ∃ g a b, content A g = some a ∧ content B g = some b ∧ a.hallucinated ≠ b.hallucinated :=
  ⟨exOne 2 ⟨0, 0, 0⟩ (exE true), exOne 2 ⟨0, 0, 0⟩ (exE false), exOne_wf (by decide) (by decide) _ _, exOne_wf (by decide) (by decide) _ _, rfl,
    by decide +kernel, ⟨1, 0, 1⟩, exE true, exE false, by decide +kernel, by decide +kernel, by decide⟩

/-- **C63** is violated: a layer holding a NaN is not the same as itself. -/
theorem C63_not_reflexive : ∃ A : VLayer (TsdfVoxel Fl), WellFormed A ∧ isSameLayer exZ (sameTsdf exAr) A A = .ok false :=
  ⟨exOne 2 ⟨0, 0, 0⟩ (exT .nan), exOne_wf (by decide) (by decide) _ _, by decide +kernel⟩

/-- **C63** is violated: the comparison is no equivalence (not transitive), as differences below the tolerance add up. -/
theorem C63_not_transitive : ∃ A B C : VLayer (TsdfVoxel Fl), WellFormed A ∧ WellFormed B ∧ WellFormed C ∧
    isSameLayer exZ (sameTsdf exAr) A B = .ok true ∧ isSameLayer exZ (sameTsdf exAr) B C = .ok true ∧
    isSameLayer exZ (sameTsdf exAr) A C = .ok false :=
  ⟨exOne 2 ⟨0, 0, 0⟩ (exT (.fin 0)), exOne 2 ⟨0, 0, 0⟩ (exT (.fin (1 / 2 ^ 34))), exOne 2 ⟨0, 0, 0⟩ (exT (.fin (1 / 2 ^ 33))),
    exOne_wf (by decide) (by decide) _ _, exOne_wf (by decide) (by decide) _ _, exOne_wf (by decide) (by decide) _ _,
    by decide +kernel, by decide +kernel, by decide +kernel⟩

/-- **C63** is violated: for layers of different sides the comparison reads beyond the smaller block's voxels if the first layer's
blocks are the larger ones, and answers false the other way round. -/
theorem C63_other_side : ∃ A B : VLayer (TsdfVoxel Fl), WellFormed A ∧ WellFormed B ∧
    isSameLayer exZ (sameTsdf exAr) A B = .ub ∧ isSameLayer exZ (sameTsdf exAr) B A = .ok false :=
  ⟨exOne 2 ⟨0, 0, 0⟩ (exT (.fin 0)), exOne 1 ⟨0, 0, 0⟩ (exT (.fin 0)), exOne_wf (by decide) (by decide) _ _,
    exOne_wf (by decide) (by decide) _ _, by decide +kernel, by decide +kernel⟩

/-- Comparing layers of any other voxel type aborts as soon as they share a block. -/
theorem C63_other_type (z : Sizes) {A B : VLayer V} (wa : WellFormed A) (wb : WellFormed B) (hv : A.cfg.vps = B.cfg.vps) {i : Idx} {es}
    {a : Block ℚ V} (hA : A.blocks = (i, a) :: es) (hi : Allocated B i) : isSameLayer z sameOther A B = .fatal := by
  have h1 : block? A i = some a := by
    unfold block?
    rw [hA, List.lookup_cons]
    simp
  obtain ⟨b, h2⟩ := Option.isSome_iff_exists.1 hi
  have h2' : block? B i = some b := h2
  obtain ⟨a1, _, _, a4⟩ := wa.block _ _ h1
  obtain ⟨_, _, _, b4⟩ := wb.block _ _ h2
  have hpos : 0 < A.cfg.vps * A.cfg.vps * A.cfg.vps := by
    have := wa.side_pos
    positivity
  have hb : isSameBlock sameOther a b = .fatal := by
    obtain ⟨x, x1, _⟩ := Merge.voxelAt_ok (b := a) (k := 0) (by omega)
    obtain ⟨y, y1, _⟩ := Merge.voxelAt_ok (b := b) (k := 0) (by rw [b4, ← hv]; exact hpos)
    unfold isSameBlock sameVoxels numVoxels
    rw [a1]
    obtain ⟨m, hm⟩ : ∃ m, A.cfg.vps * A.cfg.vps * A.cfg.vps = m + 1 := ⟨_, (Nat.succ_pred_eq_of_pos hpos).symm⟩
    rw [hm, List.range_succ_eq_map, List.foldlM_cons]
    simp [x1, y1, sameOther]
  unfold isSameLayer
  rw [hA]
  simp only [List.map_cons]
  unfold sameBlocks
  rw [if_pos (allocated_iff_mem.1 hi)]
  simp [blockByIndex, h1, h2', hb]

example : Allocated (exOne 2 ⟨0, 0, 0⟩ 7) ⟨0, 0, 0⟩ := by unfold Allocated; decide

/-! ## C64 centering -/

theorem mean_moved {l l' : VLayer V} {s : Idx} {o : Pt} (hp : l'.blocks.Perm (l.blocks.map (moved s o))) (h0 : l.blocks ≠ [])
    (f : Idx → ℤ) (hf : ∀ i j : Idx, f (i - j) = f i - f j) : meanIndex f l' = meanIndex f l - f s := by
  have hl : l'.blocks.length = l.blocks.length := by rw [hp.length_eq, List.length_map]
  have hpos : (l.blocks.length : ℚ) ≠ 0 := by
    have : l.blocks.length ≠ 0 := by simpa using h0
    exact_mod_cast this
  have hs : ∀ es : List (Idx × Block ℚ V), ((es.map (moved s o)).map fun e => (f e.1 : ℚ)).sum = (es.map fun e => (f e.1 : ℚ)).sum - es.length * f s := by
    intro es
    induction es with
    | nil => simp
    | cons e es ih =>
      simp only [List.map_cons, List.sum_cons, ih, List.length_cons, moved, hf]
      push_cast
      ring
  unfold meanIndex
  rw [(hp.map fun e => (f e.1 : ℚ)).sum_eq, hs, hl]
  field_simp

/-- **C64**, the movement. For every non-empty layer whose indices leave room in 32 bits: centering succeeds; the layer is
moved by one common vector of whole blocks, with all voxels and block states; the returned point is where the new origin was;
and the mean block index afterwards is within one and a half blocks of the origin along each axis. -/
theorem C64_moves {l : VLayer V} (wf : WellFormed l) (hn : (l.blocks.map (·.1)).Nodup) (h0 : l.blocks ≠ [])
    (hr : ∀ i, Allocated l i → i.All fun c => |c| < 2 ^ 30)
    (order : List (Idx × Block ℚ V) → List (Idx × Block ℚ V)) (ho : ∀ m, (order m).Perm m) :
    ∃ l' o s, centerBlocksOfLayer order l = .ok (l', o) ∧ WellFormed l' ∧ MovedBy s l l' ∧
      (∀ g, voxelCenter l.cfg.voxelSize (g - s.map (· * (l.cfg.vps : ℤ))) = voxelCenter l.cfg.voxelSize g - o) ∧
      |meanIndex Vec3.x l'| < 3 / 2 ∧ |meanIndex Vec3.y l'| < 3 / 2 ∧ |meanIndex Vec3.z l'| < 3 / 2 ∧
      (-1 / 2 ≤ meanIndex Vec3.x l → |meanIndex Vec3.x l'| ≤ 1 / 2) ∧ (-1 / 2 ≤ meanIndex Vec3.y l → |meanIndex Vec3.y l'| ≤ 1 / 2) ∧
      (-1 / 2 ≤ meanIndex Vec3.z l → |meanIndex Vec3.z l'| ≤ 1 / 2) := by
  obtain ⟨l', s, h1, h2, h3, h4⟩ := center_ok wf hn h0 hr order ho
  have hlook := fun i => moved_lookup hn h4 i
  have hback : ∀ j : Idx, j + s - s = j := fun j => Vec3.ext (by simp) (by simp) (by simp)
  have wf' : WellFormed l' := by
    refine ⟨by rw [h2]; exact wf.size_pos, by rw [h2]; exact wf.side_pos, by rw [h2]; exact wf.side_le, ?_⟩
    intro j b hb
    have := hlook (j + s)
    rw [hback, hb] at this
    cases hc : l.blocks.lookup (j + s) with
    | none => rw [hc] at this; cases this
    | some c =>
      rw [hc] at this
      simp only [Option.map_some, Option.some.injEq] at this
      obtain ⟨c1, c2, c3, c4⟩ := wf.block _ _ hc
      rw [this, h2]
      refine ⟨c1, c2, ?_, c4⟩
      simp only [c3]
      refine Vec3.ext ?_ ?_ ?_ <;>
        simp only [Vec3.sub_x, Vec3.sub_y, Vec3.sub_z, Vec3.add_x, Vec3.add_y, Vec3.add_z, originPoint, Vec3.map_x, Vec3.map_y, Vec3.map_z, Cfg.blockSize] <;>
        push_cast <;> ring
  have hside : (l.cfg.vps : ℤ) ≠ 0 := by have := wf.side_pos; omega
  have mean : ∀ f : Idx → ℤ, (∀ i j : Idx, f (i - j) = f i - f j) → f s = truncZ (meanIndex f l + 1 / 2) →
      |meanIndex f l'| < 3 / 2 ∧ (-1 / 2 ≤ meanIndex f l → |meanIndex f l'| ≤ 1 / 2) := by
    intro f hf hs
    rw [mean_moved h4 h0 f hf, hs]
    obtain ⟨b1, b2, b3⟩ := truncZ_bounds (meanIndex f l + 1 / 2)
    refine ⟨abs_lt.2 ⟨by linarith, by linarith⟩, fun h => abs_le.2 ⟨?_, by linarith⟩⟩
    have := b3 (by linarith)
    linarith
  have mx := mean Vec3.x (fun _ _ => rfl) (by rw [h3])
  have my := mean Vec3.y (fun _ _ => rfl) (by rw [h3])
  have mz := mean Vec3.z (fun _ _ => rfl) (by rw [h3])
  refine ⟨l', _, s, h1, wf', ⟨h2, ?_, ?_, ?_⟩, ?_, mx.1, my.1, mz.1, mx.2, my.2, mz.2⟩
  · intro g
    rw [content_eq wf', content_eq wf, h2]
    have e1 : blockOf l.cfg.vps (g - s.map (· * (l.cfg.vps : ℤ))) = blockOf l.cfg.vps g - s := by
      refine Vec3.ext ?_ ?_ ?_ <;>
        simp only [blockOf, Vec3.map_x, Vec3.map_y, Vec3.map_z, Vec3.sub_x, Vec3.sub_y, Vec3.sub_z] <;>
        rw [Int.sub_mul_ediv_right _ _ hside]
    have e2 : localOf l.cfg.vps (g - s.map (· * (l.cfg.vps : ℤ))) = localOf l.cfg.vps g := by
      refine Vec3.ext ?_ ?_ ?_ <;>
        simp only [localOf, Vec3.map_x, Vec3.map_y, Vec3.map_z, Vec3.sub_x, Vec3.sub_y, Vec3.sub_z, Int.sub_mul_emod_self_right]
    rw [e1, e2]
    unfold block?
    rw [hlook]
    cases l.blocks.lookup (blockOf l.cfg.vps g) <;> rfl
  · intro i
    unfold status
    rw [hlook]
    cases l.blocks.lookup i <;> rfl
  · rw [h4.length_eq, List.length_map]
  · intro g
    refine Vec3.ext ?_ ?_ ?_ <;>
      simp only [voxelCenter, originPoint, Vec3.map_x, Vec3.map_y, Vec3.map_z, Vec3.sub_x, Vec3.sub_y, Vec3.sub_z, Cfg.blockSize] <;>
      push_cast <;> ring

/-- **C64** (partial): for layers whose mean block index is not below minus one half along any axis, centering moves all blocks
by one common vector and the mean ends within half a block of the origin. The full claim covers every block set; for negative
means it is false (`C64_not_centered`), and for the empty layer the behaviour is undefined (`C64_empty`). -/
theorem C64_centers_partial {l : VLayer V} (wf : WellFormed l) (hn : (l.blocks.map (·.1)).Nodup) (h0 : l.blocks ≠ [])
    (hr : ∀ i, Allocated l i → i.All fun c => |c| < 2 ^ 30)
    (hx : -1 / 2 ≤ meanIndex Vec3.x l) (hy : -1 / 2 ≤ meanIndex Vec3.y l) (hz : -1 / 2 ≤ meanIndex Vec3.z l)
    (order : List (Idx × Block ℚ V) → List (Idx × Block ℚ V)) (ho : ∀ m, (order m).Perm m) :
    ∃ l' o s, centerBlocksOfLayer order l = .ok (l', o) ∧ WellFormed l' ∧ MovedBy s l l' ∧
      |meanIndex Vec3.x l'| ≤ 1 / 2 ∧ |meanIndex Vec3.y l'| ≤ 1 / 2 ∧ |meanIndex Vec3.z l'| ≤ 1 / 2 := by
  obtain ⟨l', o, s, h1, h2, h3, _, _, _, _, h4, h5, h6⟩ := C64_moves wf hn h0 hr order ho
  exact ⟨l', o, s, h1, h2, h3, h4 hx, h5 hy, h6 hz⟩

/-- Two blocks, with one voxel each. -/
def exTwo : VLayer ℕ := ⟨⟨1 / 2, 1⟩, [(⟨4, 0, -1⟩, ⟨1, 1 / 2, ⟨2, 0, -1 / 2⟩, true, Flags.setAll, [7]⟩),
  (⟨5, 3, 1⟩, ⟨1, 1 / 2, ⟨5 / 2, 3 / 2, 1 / 2⟩, false, Flags.ofBool false, [8]⟩)]⟩

theorem exTwo_wf : WellFormed exTwo := by
  refine ⟨by norm_num [exTwo], by decide, by decide, ?_⟩
  intro i b h
  unfold exTwo at h
  rw [lookup_cons_ite, lookup_cons_ite] at h
  split_ifs at h with h1 h2
  · obtain rfl := Option.some.inj h
    rw [h1]
    exact ⟨rfl, rfl, by norm_num [exTwo], rfl⟩
  · obtain rfl := Option.some.inj h
    rw [h2]
    exact ⟨rfl, rfl, by norm_num [exTwo], rfl⟩
  · cases h

example : WellFormed exTwo ∧ (exTwo.blocks.map (·.1)).Nodup ∧ exTwo.blocks ≠ [] ∧ (∀ i, Allocated exTwo i → i.All fun c => |c| < 2 ^ 30) ∧
    -1 / 2 ≤ meanIndex Vec3.x exTwo ∧ -1 / 2 ≤ meanIndex Vec3.y exTwo ∧ -1 / 2 ≤ meanIndex Vec3.z exTwo ∧
    (match centerBlocksOfLayer id exTwo with
      | .ok (l, o) => decide (l.blocks.map (·.1) = [⟨-1, -2, -1⟩, ⟨0, 1, 1⟩] ∧ o = ⟨5 / 2, 1, 0⟩)
      | _ => false) = true := by
  refine ⟨exTwo_wf, by decide, by simp [exTwo], ?_, by norm_num [meanIndex, exTwo], by norm_num [meanIndex, exTwo], by norm_num [meanIndex, exTwo],
    by decide +kernel⟩
  intro i hi
  rw [allocated_iff_mem] at hi
  simp only [exTwo, List.map_cons, List.map_nil, List.mem_cons, List.not_mem_nil, or_false] at hi
  rcases hi with rfl | rfl <;> exact ⟨by decide, by decide, by decide⟩

/-- **C64** is violated: a single block at index -1 stays where it is, a whole block away from the origin, since the conversion to
integers truncates toward zero instead of rounding down. -/
theorem C64_not_centered : ∃ l : VLayer ℕ, WellFormed l ∧ (l.blocks.map (·.1)).Nodup ∧ l.blocks ≠ [] ∧
    ∃ l' o, centerBlocksOfLayer id l = .ok (l', o) ∧ l' = l ∧ ¬ |meanIndex Vec3.x l'| ≤ 1 / 2 := by
  refine ⟨exOne 2 ⟨-1, 0, 0⟩ 7, exOne_wf (by decide) (by decide) _ _, exOne_nodup _ _ _, by simp [exOne], exOne 2 ⟨-1, 0, 0⟩ 7, 0, by decide +kernel, rfl, ?_⟩
  norm_num [meanIndex, exOne]

/-- **C64** is violated: centering a layer without blocks divides zero by zero and converts the NaN to an integer. -/
theorem C64_empty (order : List (Idx × Block ℚ V) → List (Idx × Block ℚ V)) (c : Cfg) : centerBlocksOfLayer order ⟨c, []⟩ = .ub := rfl

/-- **C63**, the memory compared by `isSameLayer`: though only the first block is looked at, the size reported is that of the layer with every block and
every voxel stored counted once. -/
theorem C63_memory (z : Sizes) {A : VLayer V} (wa : WellFormed A) (nd : (A.blocks.map (·.1)).Nodup) :
    layerMemory z A = z.layer + (A.blocks.map fun e => z.block + e.2.voxels.length * z.voxel).sum := by
  have each : ∀ e ∈ A.blocks, e.2.vps = A.cfg.vps ∧ e.2.voxels.length = A.cfg.vps * A.cfg.vps * A.cfg.vps := by
    rintro ⟨i, b⟩ he
    obtain ⟨h1, -, -, h2⟩ := wa.block i b ((lookup_mem_iff nd).2 he)
    exact ⟨h1, h2⟩
  have hs : (A.blocks.map fun e => z.block + e.2.voxels.length * z.voxel) =
      A.blocks.map fun _ => z.block + A.cfg.vps * A.cfg.vps * A.cfg.vps * z.voxel :=
    List.map_congr_left fun e he => by rw [(each e he).2]
  rw [hs, List.map_const', List.sum_replicate, nsmul_eq_mul, Nat.cast_id]
  unfold layerMemory
  cases h : A.blocks with
  | nil => simp
  | cons e es =>
    have h1 := (each e (by rw [h]; simp)).1
    simp only [blockMemory, numVoxels, h1]

example : WellFormed exTwo ∧ (exTwo.blocks.map (·.1)).Nodup ∧ exTwo.blocks.length = 2 ∧
    layerMemory ⟨24, 50, 8⟩ exTwo = 24 + 2 * (50 + exTwo.cfg.vps ^ 3 * 8) := ⟨exTwo_wf, by decide, rfl, by decide +kernel⟩

end Vox.LayerUtils
