/-
Properties C84 and C85: the recoloured mesh of the intensity server, and the sampling of intensity images.
-/
import Verif.Lemmas.IntensityVis
import Verif.Props.Interp
import Verif.Props.CloudMsg

namespace Vox.IntensityVis

open Layer Grid Ieee MeshMsg Spec Interp

/-! ### Examples -/

/-- Blocks of one voxel of size 2; the voxel between 0 and 2 holds intensity 100, the one between 8192 and 8194 (in each direction) intensity 200. -/
def exLayer : VLayer (IntensityVoxel Fl) :=
  ⟨⟨2, 1⟩, [(⟨0, 0, 0⟩, ⟨1, 2, ⟨0, 0, 0⟩, true, Flags.setAll, [⟨.fin 100, .fin 1⟩]⟩),
    (⟨4096, 4096, 4096⟩, ⟨1, 2, ⟨8192, 8192, 8192⟩, true, Flags.setAll, [⟨.fin 200, .fin 1⟩]⟩),
    (⟨4097, 4096, 4096⟩, ⟨1, 2, ⟨8194, 8192, 8192⟩, true, Flags.setAll, [⟨.fin 150, .fin 0⟩]⟩)]⟩

/-- A vertex sent as (16384, 16384, 16384), which is displayed near (1, 1, 1). -/
def exBlock : MeshBlock := ⟨⟨0, 0, 0⟩, [16384], [16384], [16384], [1], [2], [3]⟩

/-- Vertices sent as (8193, 8193, 8193), (8195, 8193, 8193) and (5, 5, 5), without colours. -/
def exFar : MeshBlock := ⟨⟨0, 0, 0⟩, [8193, 8195, 5], [8193, 8193, 5], [8193, 8193, 5], [], [], []⟩

def exLook : Fl → Outcome Color := CloudMsg.lookup CloudMsg.exA .grayscale 0 200

theorem exLayer_wf : WellFormed exLayer := by
  refine ⟨by norm_num [exLayer], by decide, by decide, ?_⟩
  intro i b h
  have key : ∀ e ∈ exLayer.blocks, e.2.vps = exLayer.cfg.vps ∧ e.2.voxelSize = exLayer.cfg.voxelSize ∧
      e.2.origin = ⟨e.1.x * (exLayer.cfg.voxelSize * exLayer.cfg.vps), e.1.y * (exLayer.cfg.voxelSize * exLayer.cfg.vps),
        e.1.z * (exLayer.cfg.voxelSize * exLayer.cfg.vps)⟩ ∧ e.2.voxels.length = exLayer.cfg.vps * exLayer.cfg.vps * exLayer.cfg.vps := by decide +kernel
  have hm : (i, b) ∈ exLayer.blocks := by
    obtain ⟨l1, l2, e, -⟩ := List.lookup_eq_some_iff.1 h
    rw [e]
    simp
  exact key _ hm

/-! ### The mesh -/

/-- **C84**, what recolouring does: everything but the colours stays, all channels get one entry for each vertex, and a vertex that was sent as
(x, y, z) gets the colour of the intensity of the voxel at the position with the coordinates x, y and z, if that has been measured; else its colour
stays. -/
theorem C84_recolored {look : Fl → Outcome Color} {l : VLayer (IntensityVoxel Fl)} (wf : WellFormed l) {m m' : Msg} (h : recolor look l m = .ok m')
    (ha : ∀ b ∈ m.blocks, ∀ k x y z, Sends b k x y z → Addressable l ⟨x, y, z⟩) :
    m'.edge = m.edge ∧ List.Forall₂ (fun b b' => b'.index = b.index ∧ b'.x = b.x ∧ b'.y = b.y ∧ b'.z = b.z ∧
      (b.x ≠ [] → b'.r.length = b.x.length ∧ b'.g.length = b.x.length ∧ b'.b.length = b.x.length) ∧
      ∀ k < b.x.length, ∃ x y z, Sends b k x y z ∧
        ∀ g, ClearInVoxel l g ⟨x, y, z⟩ → Repainted look (content l g) (vertexBytes b k) (vertexBytes b' k)) m.blocks m'.blocks := by
  unfold recolor at h
  obtain ⟨bs, hbs, h'⟩ := Outcome.bind_eq_ok.1 h
  clear h
  have := (Outcome.ok.inj h').symm
  subst this
  clear h'
  refine ⟨rfl, ?_⟩
  dsimp only
  generalize m.blocks = cs at ha hbs
  induction cs generalizing bs with
  | nil =>
    have := Outcome.ok.inj hbs
    subst this
    exact .nil
  | cons b cs ih =>
    rw [List.mapM_cons] at hbs
    obtain ⟨b', hb', hbs⟩ := Outcome.bind_eq_ok.1 hbs
    obtain ⟨bs', hbs', hbs⟩ := Outcome.bind_eq_ok.1 hbs
    have := (Outcome.ok.inj hbs).symm
    subst this
    refine .cons ?_ (ih _ (fun c hc => ha c (List.mem_cons_of_mem _ hc)) hbs')
    obtain ⟨s1, s2, s3, -⟩ := foldl_ok b.x.length le_rfl hb'
    obtain ⟨t1, t2, t3, t4⟩ := s1
    refine ⟨t1, t2, t3, t4, fun hne => ?_, fun k hk => ?_⟩
    · have := s2 (List.length_pos_iff.2 hne)
      unfold Filled at this
      rwa [t2] at this
    · obtain ⟨x, y, z, o, u1, u2, u3⟩ := s3 k hk
      refine ⟨x, y, z, u1, fun g hg => ?_⟩
      rw [voxelPtrAt_ok wf (ha b List.mem_cons_self k x y z u1), gIdx_eq wf hg] at u2
      rwa [Outcome.ok.inj u2]

example : recolor exLook exLayer ⟨.fin 4, [exFar]⟩ = .ok ⟨.fin 4, [{ exFar with r := [255, 0, 0], g := [255, 0, 0], b := [255, 0, 0] }]⟩ ∧
    Sends exFar 0 8193 8193 8193 ∧ ClearInVoxel exLayer ⟨4096, 4096, 4096⟩ ⟨8193, 8193, 8193⟩ := by
  refine ⟨by decide +kernel, ⟨rfl, rfl, rfl⟩, ?_, ?_, ?_⟩ <;> norm_num [exLayer]

/-- **C84**, recolouring ends normally for complete messages, intensities of any kind and colour maps that are defined everywhere. -/
theorem C84_defined {look : Fl → Outcome Color} (hl : ∀ v, ∃ c, look v = .ok c) {l : VLayer (IntensityVoxel Fl)} (wf : WellFormed l) {m : Msg}
    (hc : ∀ b ∈ m.blocks, Complete b) (ha : ∀ b ∈ m.blocks, ∀ k x y z, Sends b k x y z → Addressable l ⟨x, y, z⟩) :
    ∃ m', recolor look l m = .ok m' := by
  have main : ∀ cs : List MeshBlock, (∀ b ∈ cs, Complete b) → (∀ b ∈ cs, ∀ k x y z, Sends b k x y z → Addressable l ⟨x, y, z⟩) →
      ∃ bs, cs.mapM (recolorBlock look l) = .ok bs := by
    intro cs
    induction cs with
    | nil => exact fun _ _ => ⟨[], rfl⟩
    | cons b cs ih =>
      intro h1 h2
      obtain ⟨bs, hbs⟩ := ih (fun c hc => h1 c (List.mem_cons_of_mem _ hc)) (fun c hc => h2 c (List.mem_cons_of_mem _ hc))
      obtain ⟨b', hb'⟩ := foldl_defined hl (h1 b List.mem_cons_self) (fun k x y z hs => ⟨_, voxelPtrAt_ok wf (h2 b List.mem_cons_self k x y z hs)⟩)
        b.x.length le_rfl
      refine ⟨b' :: bs, ?_⟩
      rw [List.mapM_cons]
      unfold recolorBlock at hbs ⊢
      rw [hb', Outcome.bind_ok, hbs]
      rfl
  obtain ⟨bs, hbs⟩ := main m.blocks hc ha
  exact ⟨⟨m.edge, bs⟩, by unfold recolor; rw [hbs]; rfl⟩

example : (∀ v, ∃ c, exLook v = .ok c) ∧ Complete exFar ∧ ∀ k x y z, Sends exFar k x y z → Addressable exLayer ⟨x, y, z⟩ := by
  refine ⟨CloudMsg.lookup_defined (.exact _) _ (by decide +kernel), ⟨rfl, rfl⟩, ?_⟩
  rintro k x y z ⟨h1, h2, h3⟩
  have bound : ∀ (l : List ℕ), (∀ a ∈ l, a ≤ 65535) → ∀ a : ℕ, l[k]? = some a → (a : ℚ) ≤ 65535 := by
    intro l hl a ha
    exact_mod_cast hl a (List.mem_of_getElem? ha)
  have bx := bound _ (by decide) _ h1
  have by' := bound _ (by decide) _ h2
  have bz := bound _ (by decide) _ h3
  have px : (0 : ℚ) ≤ x := Nat.cast_nonneg _
  have py : (0 : ℚ) ≤ y := Nat.cast_nonneg _
  have pz : (0 : ℚ) ≤ z := Nat.cast_nonneg _
  refine ⟨?_, ?_, ?_⟩ <;> constructor <;> norm_num [exLayer] <;> first | linarith | (norm_cast at bx by' bz; omega)

/-- **C84** is violated: a vertex displayed in the middle of a voxel with a measured intensity keeps its colour, since the numbers of the message, which
are relative to the block and scaled, are taken as coordinates in metres. -/
theorem C84_violated : ∃ b', recolor exLook exLayer ⟨.fin 2, [exBlock]⟩ = .ok ⟨.fin 2, [b']⟩ ∧ ¬ ShowsIntensity exLook exLayer (.fin 2) exBlock b' := by
  refine ⟨exBlock, by decide +kernel, fun h => ?_⟩
  have hd : ∃ q : ℚ, decodeVertex (.fin 2) exBlock 0 = .ok ⟨.fin q, .fin q, .fin q⟩ ∧ 1 / 2 ≤ q ∧ q ≤ 3 / 2 := by
    have e : (match decodeVertex (.fin 2) exBlock 0 with
      | .ok ⟨.fin a, .fin b, .fin c⟩ => decide (a = b ∧ b = c ∧ 1 / 2 ≤ a ∧ a ≤ 3 / 2)
      | _ => false) = true := by decide +kernel
    split at e
    · rename_i a b c hh
      obtain ⟨rfl, rfl, e1, e2⟩ := of_decide_eq_true e
      exact ⟨a, hh, e1, e2⟩
    · cases e
  obtain ⟨q, hq, q0, q1⟩ := hd
  have hin : ((0 : ℤ) + 1 / 4 : ℚ) * exLayer.cfg.voxelSize ≤ q ∧ q ≤ ((0 : ℤ) + 3 / 4 : ℚ) * exLayer.cfg.voxelSize := by
    have : exLayer.cfg.voxelSize = 2 := rfl
    rw [this]
    push_cast
    constructor <;> linarith
  have := (h 0 ⟨q, q, q⟩ ⟨0, 0, 0⟩ hq ⟨hin, hin, hin⟩).1 ⟨.fin 100, .fin 1⟩ (by decide +kernel) (by decide +kernel)
  obtain ⟨c, hc, e⟩ := this
  have hlook : exLook (.fin 100) = .ok ⟨128, 128, 128, 255⟩ := by decide +kernel
  rw [hlook] at hc
  have := (Outcome.ok.inj hc).symm
  subst this
  revert e
  decide +kernel

/-- **C84** is violated in the other direction as well: a vertex displayed close to (0, 0, 0) gets the colour of a voxel 8 km away. -/
theorem C84_far_violated : recolor exLook exLayer ⟨.fin (1 / 1000), [exFar]⟩ =
      .ok ⟨.fin (1 / 1000), [{ exFar with r := [255, 0, 0], g := [255, 0, 0], b := [255, 0, 0] }]⟩ ∧
    exLook (.fin 200) = .ok ⟨255, 255, 255, 255⟩ ∧ content exLayer ⟨4096, 4096, 4096⟩ = some ⟨.fin 200, .fin 1⟩ ∧
    ∃ q : ℚ, decodeVertex (.fin (1 / 1000)) exFar 0 = .ok ⟨.fin q, .fin q, .fin q⟩ ∧ 0 ≤ q ∧ q ≤ 1 / 1000 := by
  refine ⟨by decide +kernel, by decide +kernel, by decide +kernel, ?_⟩
  have e : (match decodeVertex (.fin (1 / 1000)) exFar 0 with
    | .ok ⟨.fin a, .fin b, .fin c⟩ => decide (a = b ∧ b = c ∧ 0 ≤ a ∧ a ≤ 1 / 1000)
    | _ => false) = true := by decide +kernel
  split at e
  · rename_i a b c hh
    obtain ⟨rfl, rfl, e1, e2⟩ := of_decide_eq_true e
    exact ⟨a, hh, e1, e2⟩
  · cases e

/-- **C84** is violated for every map: the new colours do not depend on which block the vertices belong to. -/
theorem C84_index_violated (look : Fl → Outcome Color) (l : VLayer (IntensityVoxel Fl)) (b : MeshBlock) (i : Idx) :
    recolorBlock look l { b with index := i } = (fun b' => { b' with index := i }) <$> recolorBlock look l b := by
  have step : ∀ (k : ℕ) (b : MeshBlock), recolorVertex look l { b with index := i } k = (fun b' => { b' with index := i }) <$> recolorVertex look l b k := by
    intro k b
    unfold recolorVertex
    simp only [map_bind]
    refine bind_congr fun x => bind_congr fun y => bind_congr fun z => bind_congr fun o => ?_
    cases o with
    | none => rfl
    | some v =>
      show (if Fl.lt (.fin 0) v.weight then look v.intensity >>= fun c => pure (setColor (resizeColors { b with index := i }) k c) else
          .ok (resizeColors { b with index := i })) = (fun b' : MeshBlock => { b' with index := i }) <$>
        (if Fl.lt (.fin 0) v.weight then look v.intensity >>= fun c => pure (setColor (resizeColors b) k c) else .ok (resizeColors b))
      split_ifs
      · rw [map_bind]
        rfl
      · rfl
  have main : ∀ (ks : List ℕ) (b : MeshBlock), ks.foldlM (recolorVertex look l) { b with index := i } =
      (fun b' => { b' with index := i }) <$> ks.foldlM (recolorVertex look l) b := by
    intro ks
    induction ks with
    | nil => intro b; rfl
    | cons k ks ih =>
      intro b
      rw [List.foldlM_cons, List.foldlM_cons, step, map_bind, bind_map_left]
      exact bind_congr fun c => ih c
  exact main _ b

/-- **C84** is violated for every map that extends to negative coordinates only: no colour is changed. -/
theorem C84_negative_violated {look : Fl → Outcome Color} {l : VLayer (IntensityVoxel Fl)} (wf : WellFormed l)
    (hneg : ∀ i, Allocated l i → i.x < 0 ∨ i.y < 0 ∨ i.z < 0) {b b' : MeshBlock} (h : recolorBlock look l b = .ok b')
    (ha : ∀ k x y z, Sends b k x y z → Addressable l ⟨x, y, z⟩) : ∀ k < b.x.length, vertexBytes b' k = vertexBytes b k := by
  intro k hk
  obtain ⟨-, -, s3, -⟩ := foldl_ok b.x.length le_rfl h
  obtain ⟨x, y, z, o, u1, u2, u3⟩ := s3 k hk
  have hn : block? l (bIdx l ⟨x, y, z⟩) = none := by
    cases hb : block? l (bIdx l ⟨x, y, z⟩) with
    | none => rfl
    | some c =>
      have hall : Allocated l (bIdx l ⟨x, y, z⟩) := by
        unfold Allocated
        have : l.blocks.lookup (bIdx l ⟨x, y, z⟩) = some c := hb
        rw [this]
        rfl
      have pos : ∀ a : ℕ, 0 ≤ bAx l.cfg.vps l.cfg.voxelSize a := by
        intro a
        unfold bAx
        rw [Int.floor_nonneg]
        have : (0 : ℚ) < l.cfg.voxelSize := wf.size_pos
        have e : (0 : ℚ) ≤ kEpsilon := by unfold kEpsilon; norm_num
        positivity
      have hx : 0 ≤ (bIdx l ⟨x, y, z⟩).x := pos x
      have hy : 0 ≤ (bIdx l ⟨x, y, z⟩).y := pos y
      have hz : 0 ≤ (bIdx l ⟨x, y, z⟩).z := pos z
      rcases hneg _ hall with h | h | h <;> omega
  have : o = none := by
    have := voxelPtrAt_ok wf (ha k x y z u1)
    rw [u2] at this
    rw [Outcome.ok.inj this]
    exact content_none hn (vIdx_inBlock wf _)
  subst this
  exact u3.2 (fun v hv => by cases hv)

/-- A map with negative coordinates. -/
def exNegative : VLayer (IntensityVoxel Fl) := ⟨⟨2, 1⟩, [(⟨-1, 0, 0⟩, ⟨1, 2, ⟨-2, 0, 0⟩, true, Flags.setAll, [⟨.fin 100, .fin 1⟩]⟩)]⟩

example : (∀ i, Allocated exNegative i → i.x < 0 ∨ i.y < 0 ∨ i.z < 0) ∧ ∃ b', recolorBlock exLook exNegative { exBlock with index := ⟨-1, 0, 0⟩ } = .ok b' := by
  refine ⟨fun i hi => ?_, { exBlock with index := ⟨-1, 0, 0⟩ }, by decide +kernel⟩
  unfold Allocated at hi
  obtain ⟨b, hb⟩ := Option.isSome_iff_exists.1 hi
  obtain ⟨l1, l2, e, -⟩ := List.lookup_eq_some_iff.1 hb
  have hm : (i, b) ∈ exNegative.blocks := by rw [e]; simp
  have key : ∀ e ∈ exNegative.blocks, e.1.x < 0 := by decide +kernel
  exact .inl (key _ hm)

/-! ### The image -/

/-- **C85**: an image is sampled at every `factor`-th pixel, counted row by row and beginning with the first one; each sample has the intensity of its pixel,
and the ray is computed without rounding errors up to the normalisation and the rotation. -/
theorem C85_samples (rot : Vec3 Fl → Vec3 Fl) (focal : Fl) {factor : ℤ} (hf : 1 ≤ factor) (hf2 : factor < 2 ^ 31) {im : Image} (hfl : im.isFloat = true)
    (hr : im.rows ≤ 2 ^ 23) (hc : im.cols ≤ 2 ^ 23) (hrc : im.rows * im.cols < 2 ^ 31) :
    ∃ s, sampleImage rot focal factor im = .ok s ∧ (∀ k : ℕ, k < s.length ↔ k * factor < (im.rows * im.cols : ℕ)) ∧
      ∀ (k i j : ℕ), i < im.rows → j < im.cols → (i * im.cols + j : ℕ) = k * factor →
        s[k]? = some (rot (Occ.normalized float32 ⟨.fin (j - im.cols / 2), .fin (i - im.rows / 2), toFloat focal⟩), im.pixel i j) := by
  obtain ⟨f, rfl⟩ := Int.eq_ofNat_of_zero_le (show 0 ≤ factor by omega)
  have f0 : 0 < f := by omega
  have hres : reserveSize im.rows im.cols f = .ok () := by
    unfold reserveSize
    rw [if_neg (by push Not; exact ⟨by omega, hrc⟩), if_neg]
    have := Int.tdiv_nonneg (a := ((im.rows * im.cols : ℕ) : ℤ)) (b := (f : ℤ)) (by positivity) (by positivity)
    omega
  have hsam : ∀ m, sampled f m = decide (m % f = 0) := by
    intro m
    unfold sampled
    have : ((f : ℤ) % 2 ^ 64).toNat = f := by
      rw [Int.emod_eq_of_lt (by omega) (by omega)]
      rfl
    rw [this]
  have key : sampleImage rot focal f im = .ok ((List.range ((im.rows * im.cols + f - 1) / f)).map fun k =>
      (rot (bearing im.rows im.cols focal (k * f / im.cols) (k * f % im.cols)), im.pixel (k * f / im.cols) (k * f % im.cols))) := by
    unfold sampleImage
    rw [hres, Outcome.bind_ok, hfl]
    show Outcome.ok _ = _
    rw [rows_foldl, pixels_foldl]
    simp only [hsam]
    rw [filter_multiples f0, List.map_map]
    rfl
  have hlen : ∀ k : ℕ, k < (im.rows * im.cols + f - 1) / f ↔ k * f < im.rows * im.cols := by
    intro k
    rw [Nat.lt_div_iff_mul_lt f0]
    constructor <;> intro h <;> omega
  refine ⟨_, key, fun k => ?_, fun k i j hi hj hk => ?_⟩
  · rw [List.length_map, List.length_range, hlen]
    exact_mod_cast Iff.rfl
  · have hk' : i * im.cols + j = k * f := by exact_mod_cast hk
    have hlt : k < (im.rows * im.cols + f - 1) / f := by
      rw [hlen, ← hk']
      have : (i + 1) * im.cols ≤ im.rows * im.cols := Nat.mul_le_mul_right _ hi
      rw [Nat.succ_mul] at this
      omega
    rw [List.getElem?_map, List.getElem?_range hlt]
    have e1 : k * f / im.cols = i := by
      rw [← hk', Nat.mul_comm, Nat.mul_add_div (by omega), Nat.div_eq_of_lt hj, Nat.add_zero]
    have e2 : k * f % im.cols = j := by
      rw [← hk', Nat.mul_comm, Nat.mul_add_mod, Nat.mod_eq_of_lt hj]
    show some _ = some _
    dsimp only
    rw [e1, e2, bearing_eq hr hc (le_of_lt (lt_of_lt_of_le hi hr)) (le_of_lt (lt_of_lt_of_le hj hc))]

def exImage : Image := ⟨2, 3, true, fun i j => .fin (10 * i + j : ℕ)⟩

example : sampleImage id (.fin 400) 2 exImage = .ok [(Occ.normalized float32 ⟨.fin (-3 / 2), .fin (-1), .fin 400⟩, .fin 0),
    (Occ.normalized float32 ⟨.fin (1 / 2), .fin (-1), .fin 400⟩, .fin 2), (Occ.normalized float32 ⟨.fin (-1 / 2), .fin 0, .fin 400⟩, .fin 11)] := by
  obtain ⟨s, h, hl, hs⟩ := C85_samples id (.fin 400) (factor := 2) (by norm_num) (by norm_num) (im := exImage) rfl (by decide) (by decide) (by decide)
  rw [h]
  have l3 : s.length = 3 := by
    have a := hl 2
    have b := hl 3
    have : exImage.rows * exImage.cols = 6 := rfl
    rw [this] at a b
    norm_num at a b
    omega
  have t : toFloat (.fin 400) = .fin 400 := by decide +kernel
  have a0 := hs 0 0 0 (by decide) (by decide) rfl
  have a1 := hs 1 0 2 (by decide) (by decide) rfl
  have a2 := hs 2 1 1 (by decide) (by decide) rfl
  rw [t] at a0 a1 a2
  match s, l3 with
  | [x, y, z], _ =>
    have b0 := Option.some.inj a0
    have b1 := Option.some.inj a1
    have b2 := Option.some.inj a2
    rw [show x = _ from b0, show y = _ from b1, show z = _ from b2]
    norm_num [exImage]

/-- **C85** has no meaning for a factor of zero, however large the image. -/
theorem C85_zero_violated (rot : Vec3 Fl → Vec3 Fl) (focal : Fl) (im : Image) : sampleImage rot focal 0 im = .ub := by
  unfold sampleImage reserveSize
  rw [if_pos (.inl rfl)]
  rfl

/-- **C85** is violated by negative factors: the server stops with an exception (or skips all pixels but the first if the image is small). -/
theorem C85_negative_violated (rot : Vec3 Fl → Vec3 Fl) (focal : Fl) {factor : ℤ} (hf : factor < 0) {im : Image} (hrc : im.rows * im.cols < 2 ^ 31)
    (hbig : 2 * -factor ≤ (im.rows * im.cols : ℕ)) : sampleImage rot focal factor im = .fatal := by
  unfold sampleImage reserveSize
  rw [if_neg (by push Not; exact ⟨by omega, hrc⟩), if_pos]
  · rfl
  · have e : ((im.rows * im.cols : ℕ) : ℤ).tdiv factor = -(((im.rows * im.cols : ℕ) : ℤ).tdiv (-factor)) := by rw [Int.tdiv_neg, neg_neg]
    rw [e, Int.tdiv_eq_ediv_of_nonneg (by positivity)]
    have : 2 ≤ ((im.rows * im.cols : ℕ) : ℤ) / (-factor) := (Int.le_ediv_iff_mul_le (by omega)).2 hbig
    omega

example : 2 * -(-3 : ℤ) ≤ (exImage.rows * exImage.cols : ℕ) := by decide

/-- **C85** is violated by images whose pixels are not `float`s, such as the usual thermal images of 8 or 16 bits: the encoding is not looked at. -/
theorem C85_encoding_violated (rot : Vec3 Fl → Vec3 Fl) (focal : Fl) {factor : ℤ} (hf : 1 ≤ factor) {im : Image} (hfl : im.isFloat = false)
    (hne : 0 < im.rows * im.cols) (hrc : im.rows * im.cols < 2 ^ 31) : sampleImage rot focal factor im = .ub := by
  unfold sampleImage reserveSize
  have := Int.tdiv_nonneg (a := ((im.rows * im.cols : ℕ) : ℤ)) (b := factor) (by positivity) (by omega)
  rw [if_neg (by push Not; exact ⟨by omega, hrc⟩), if_neg (by omega), hfl, Outcome.bind_ok]
  have : (im.rows * im.cols == 0) = false := by
    rw [beq_eq_false_iff_ne]
    omega
  rw [this]
  rfl

example : sampleImage id (.fin 400) 12 ⟨240, 320, false, fun _ _ => .fin 0⟩ = .ub := C85_encoding_violated _ _ (by norm_num) rfl (by norm_num) (by norm_num)

/-- **C85** is violated by every image in that the outermost columns (and rows) are not seen under opposite angles: the axis of the camera is half a pixel
off the middle of the pixels. -/
theorem C85_centre_violated (focal : Fl) {im : Image} (hfl : im.isFloat = true) (hr : im.rows ≤ 2 ^ 23) (hc : im.cols ≤ 2 ^ 23) (hr0 : 0 < im.rows)
    (hc0 : 0 < im.cols) (hrc : im.rows * im.cols < 2 ^ 31) :
    ∃ s a b, sampleImage id focal 1 im = .ok s ∧ s[0]? = some (Occ.normalized float32 a, im.pixel 0 0) ∧
      s[im.cols - 1]? = some (Occ.normalized float32 b, im.pixel 0 (im.cols - 1)) ∧ ∃ x y : ℚ, a.x = .fin x ∧ b.x = .fin y ∧ x + y = -1 := by
  obtain ⟨s, h, -, hs⟩ := C85_samples id focal (factor := 1) le_rfl (by norm_num) hfl hr hc hrc
  refine ⟨s, _, _, h, hs 0 0 0 hr0 hc0 (by simp), hs (im.cols - 1) 0 (im.cols - 1) hr0 (by omega) (by simp), _, _, rfl, rfl, ?_⟩
  rw [Nat.cast_sub (by omega)]
  push_cast
  ring

example : ∃ s, sampleImage id (.fin 400) 1 exImage = .ok s ∧ s.length = 6 := by
  obtain ⟨s, h, hl, -⟩ := C85_samples id (.fin 400) (factor := 1) le_rfl (by norm_num) (im := exImage) rfl (by decide) (by decide) (by decide)
  refine ⟨s, h, ?_⟩
  have a := hl 5
  have b := hl 6
  have : exImage.rows * exImage.cols = 6 := rfl
  rw [this] at a b
  norm_num at a b
  omega

end Vox.IntensityVis
