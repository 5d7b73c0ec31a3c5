/-
Facts on recolouring and sampling.
-/
import Verif.Spec.IntensityVis
import Verif.Lemmas.Grid
import Verif.Lemmas.MeshMsg

namespace Vox.IntensityVis

open Layer Grid Ieee MeshMsg Spec

theorem voxelPtrAt_ok {V : Type} {l : VLayer V} (wf : WellFormed l) {p : Pt} (hp : Addressable l p) : voxelPtrAt l p = .ok (content l (gIdx l p)) := by
  unfold voxelPtrAt blockAtCoords
  rw [blockIndexOf_ok wf hp]
  simp only [Outcome.bind_ok, Outcome.pure_eq]
  have eg : gIdx l p = globalIndex l.cfg.vps (bIdx l p) (vIdx l p) := rfl
  cases hb : block? l (bIdx l p) with
  | none => rw [eg, content_none hb (vIdx_inBlock wf p)]
  | some b =>
    obtain ⟨x, hx, hc⟩ := voxelByIndex_content wf hb (vIdx_inBlock wf p)
    unfold voxelByCoords
    simp only [truncated_ok wf hb, Outcome.bind_ok, hx]
    rw [eg, hc]

theorem resized_length (n : ℕ) (c : List (BitVec 8)) : (resized n c).length = n := by
  unfold resized
  simp
  omega

theorem resized_getD {n : ℕ} {c : List (BitVec 8)} {k : ℕ} (hk : k < n) : (resized n c).getD k 0 = c.getD k 0 := by
  unfold resized
  rw [List.getD_eq_getElem?_getD, List.getD_eq_getElem?_getD]
  by_cases h : k < c.length
  · rw [List.getElem?_append_left (by simp; omega), List.getElem?_take_of_lt hk]
  · rw [List.getElem?_append_right (by simp; omega), List.getElem?_eq_none (l := c) (by omega), List.getElem?_replicate]
    split_ifs <;> rfl

theorem resized_self {n : ℕ} {c : List (BitVec 8)} (h : c.length = n) : resized n c = c := by
  unfold resized
  rw [List.take_of_length_le h.le, h, Nat.sub_self]
  simp

theorem at_ok {α : Type} {l : List α} {i : ℕ} {a : α} : MeshOps.at_ l i = .ok a ↔ l[i]? = some a := by
  unfold MeshOps.at_
  cases l[i]? with
  | none => simp
  | some b => simp

theorem set_getD {c : List (BitVec 8)} {k j : ℕ} {v : BitVec 8} (hk : k < c.length) : (c.set k v).getD j 0 = if j = k then v else c.getD j 0 := by
  rw [List.getD_eq_getElem?_getD, List.getD_eq_getElem?_getD, List.getElem?_set]
  by_cases h : k = j
  · subst h
    simp [hk]
  · rw [if_neg h, if_neg (fun e => h e.symm)]

/-- Only the colours of two blocks may differ. -/
def SameShape (b b' : MeshBlock) : Prop := b'.index = b.index ∧ b'.x = b.x ∧ b'.y = b.y ∧ b'.z = b.z

/-- All channels have one entry for each vertex. -/
def Filled (b : MeshBlock) : Prop := b.r.length = b.x.length ∧ b.g.length = b.x.length ∧ b.b.length = b.x.length

theorem paint_ok {look : Fl → Outcome Color} {b b' : MeshBlock} {k : ℕ} (hf : Filled b) (hk : k < b.x.length) {o : Option (IntensityVoxel Fl)}
    (h : paint look b k o = .ok b') :
    SameShape b b' ∧ Filled b' ∧ Repainted look o (vertexBytes b k) (vertexBytes b' k) ∧ ∀ j ≠ k, vertexBytes b' j = vertexBytes b j := by
  obtain ⟨f1, f2, f3⟩ := hf
  have keep : b' = b → (∀ v, o = some v → Fl.lt (.fin 0) v.weight = false) →
      SameShape b b' ∧ Filled b' ∧ Repainted look o (vertexBytes b k) (vertexBytes b' k) ∧ ∀ j ≠ k, vertexBytes b' j = vertexBytes b j := by
    rintro rfl hw
    refine ⟨⟨rfl, rfl, rfl, rfl⟩, ⟨f1, f2, f3⟩, ⟨fun v hv hp => ?_, fun _ => rfl⟩, fun _ _ => rfl⟩
    rw [hw v hv] at hp
    cases hp
  cases o with
  | none => exact keep (Outcome.ok.inj h).symm (fun v hv => by cases hv)
  | some v =>
    have e : paint look b k (some v) = if Fl.lt (.fin 0) v.weight then look v.intensity >>= fun c => pure (setColor b k c) else .ok b := rfl
    rw [e] at h
    by_cases hw : Fl.lt (.fin 0) v.weight = true
    · rw [if_pos hw] at h
      obtain ⟨c, hc, h⟩ := Outcome.bind_eq_ok.1 h
      have hb := (Outcome.ok.inj h).symm
      subst hb
      refine ⟨⟨rfl, rfl, rfl, rfl⟩, ⟨by simp [setColor, f1], by simp [setColor, f2], by simp [setColor, f3]⟩, ⟨?_, ?_⟩, fun j hj => ?_⟩
      · intro w hv _
        cases Option.some.inj hv
        refine ⟨c, hc, ?_⟩
        unfold vertexBytes setColor
        simp only [set_getD (f1 ▸ hk), set_getD (f2 ▸ hk), set_getD (f3 ▸ hk), if_true]
      · intro hn
        rw [hn v rfl] at hw
        cases hw
      · unfold vertexBytes setColor
        simp only [set_getD (f1 ▸ hk), set_getD (f2 ▸ hk), set_getD (f3 ▸ hk), if_neg hj]
    · rw [if_neg hw] at h
      refine keep (Outcome.ok.inj h).symm (fun w hv => ?_)
      cases Option.some.inj hv
      simpa using hw

theorem resize_filled (b : MeshBlock) : Filled (resizeColors b) ∧ SameShape b (resizeColors b) ∧
    ∀ k < b.x.length, vertexBytes (resizeColors b) k = vertexBytes b k := by
  refine ⟨⟨resized_length _ _, resized_length _ _, resized_length _ _⟩, ⟨rfl, rfl, rfl, rfl⟩, fun k hk => ?_⟩
  unfold vertexBytes resizeColors
  simp only [resized_getD hk]

theorem vertex_ok {look : Fl → Outcome Color} {l : VLayer (IntensityVoxel Fl)} {b b' : MeshBlock} {k : ℕ} (hk : k < b.x.length)
    (h : recolorVertex look l b k = .ok b') :
    ∃ x y z o, Sends b k x y z ∧ voxelPtrAt l ⟨x, y, z⟩ = .ok o ∧ SameShape b b' ∧ Filled b' ∧ Repainted look o (vertexBytes b k) (vertexBytes b' k) ∧
      ∀ j < b.x.length, j ≠ k → vertexBytes b' j = vertexBytes b j := by
  unfold recolorVertex at h
  obtain ⟨x, hx, h⟩ := Outcome.bind_eq_ok.1 h
  obtain ⟨y, hy, h⟩ := Outcome.bind_eq_ok.1 h
  obtain ⟨z, hz, h⟩ := Outcome.bind_eq_ok.1 h
  obtain ⟨o, ho, h⟩ := Outcome.bind_eq_ok.1 h
  obtain ⟨r1, r2, r3⟩ := resize_filled b
  obtain ⟨p1, p2, p3, p4⟩ := paint_ok r1 (by rw [r2.2.1]; exact hk) h
  refine ⟨x, y, z, o, ⟨at_ok.1 hx, at_ok.1 hy, at_ok.1 hz⟩, ho, ?_, p2, ?_, ?_⟩
  · exact ⟨p1.1.trans r2.1, p1.2.1.trans r2.2.1, p1.2.2.1.trans r2.2.2.1, p1.2.2.2.trans r2.2.2.2⟩
  · rwa [r3 k hk] at p3
  · intro j hj hne
    rw [p4 j hne, r3 j hj]

theorem foldl_ok {look : Fl → Outcome Color} {l : VLayer (IntensityVoxel Fl)} {b : MeshBlock} (n : ℕ) (hn : n ≤ b.x.length) {b' : MeshBlock}
    (h : (List.range n).foldlM (recolorVertex look l) b = .ok b') :
    SameShape b b' ∧ (0 < n → Filled b') ∧
      (∀ k < n, ∃ x y z o, Sends b k x y z ∧ voxelPtrAt l ⟨x, y, z⟩ = .ok o ∧ Repainted look o (vertexBytes b k) (vertexBytes b' k)) ∧
      ∀ k < b.x.length, n ≤ k → vertexBytes b' k = vertexBytes b k := by
  induction n generalizing b' with
  | zero =>
    have hb := (Outcome.ok.inj h).symm
    subst hb
    exact ⟨⟨rfl, rfl, rfl, rfl⟩, fun h => absurd h (by omega), fun k hk => absurd hk (by omega), fun _ _ _ => rfl⟩
  | succ n ih =>
    rw [List.range_succ, List.foldlM_append] at h
    obtain ⟨c, hc, h⟩ := Outcome.bind_eq_ok.1 h
    obtain ⟨i1, -, i3, i4⟩ := ih (by omega) hc
    rw [List.foldlM_cons] at h
    obtain ⟨d, hd, h⟩ := Outcome.bind_eq_ok.1 h
    have hb := (Outcome.ok.inj h).symm
    subst hb
    obtain ⟨x, y, z, o, s1, s2, s3, s4, s5, s6⟩ := vertex_ok (by rw [i1.2.1]; omega) hd
    have sends : ∀ k x y z, Sends c k x y z ↔ Sends b k x y z := by
      intro k x y z
      unfold Sends
      rw [i1.2.1, i1.2.2.1, i1.2.2.2]
    refine ⟨⟨s3.1.trans i1.1, s3.2.1.trans i1.2.1, s3.2.2.1.trans i1.2.2.1, s3.2.2.2.trans i1.2.2.2⟩, fun _ => s4, ?_, ?_⟩
    · intro k hk
      rcases (Nat.lt_succ_iff.1 hk).lt_or_eq with hk' | rfl
      · obtain ⟨x, y, z, o, j1, j2, j3⟩ := i3 k hk'
        refine ⟨x, y, z, o, j1, j2, ?_⟩
        rwa [s6 k (by rw [i1.2.1]; omega) (by omega)]
      · refine ⟨x, y, z, o, (sends _ _ _ _).1 s1, s2, ?_⟩
        rwa [i4 k (by omega) le_rfl] at s5
    · intro k hk hle
      rw [s6 k (by rw [i1.2.1]; omega) (by omega), i4 k hk (by omega)]

theorem foldl_defined {look : Fl → Outcome Color} (hl : ∀ v, ∃ c, look v = .ok c) {l : VLayer (IntensityVoxel Fl)} {b : MeshBlock} (hc : Complete b)
    (hv : ∀ k x y z, Sends b k x y z → ∃ o, voxelPtrAt l ⟨x, y, z⟩ = .ok o) (n : ℕ) (hn : n ≤ b.x.length) :
    ∃ b', (List.range n).foldlM (recolorVertex look l) b = .ok b' := by
  induction n with
  | zero => exact ⟨b, rfl⟩
  | succ n ih =>
    obtain ⟨c, hc'⟩ := ih (by omega)
    obtain ⟨⟨-, s1, s2, s3⟩, -, -, -⟩ := foldl_ok n (by omega) hc'
    rw [List.range_succ, List.foldlM_append, hc', Outcome.bind_ok, List.foldlM_cons]
    obtain ⟨h1, h2⟩ := hc
    have gx : b.x[n]? = some b.x[n] := List.getElem?_eq_getElem (by omega)
    have gy : b.y[n]? = some b.y[n] := List.getElem?_eq_getElem (by omega)
    have gz : b.z[n]? = some b.z[n] := List.getElem?_eq_getElem (by omega)
    obtain ⟨o, ho⟩ := hv n _ _ _ ⟨gx, gy, gz⟩
    have : ∃ d, recolorVertex look l c n = .ok d := by
      unfold recolorVertex
      rw [s1, s2, s3, at_ok.2 gx, at_ok.2 gy, at_ok.2 gz]
      simp only [Outcome.bind_ok, ho]
      cases o with
      | none => exact ⟨_, rfl⟩
      | some v =>
        show ∃ d, (if Fl.lt (.fin 0) v.weight then look v.intensity >>= fun c' => pure (setColor (resizeColors c) n c') else .ok (resizeColors c)) = .ok d
        by_cases hw : Fl.lt (.fin 0) v.weight = true
        · rw [if_pos hw]
          obtain ⟨cc, hcc⟩ := hl v.intensity
          rw [hcc]
          exact ⟨_, rfl⟩
        · rw [if_neg hw]
          exact ⟨_, rfl⟩
    obtain ⟨d, hd⟩ := this
    exact ⟨d, by rw [hd]; rfl⟩

/-! ### Images -/

/-- One pixel by its number. -/
def pixelStep (rot : Vec3 Fl → Vec3 Fl) (focal : Fl) (factor : ℤ) (im : Image) (acc : List (Vec3 Fl × Fl) × ℕ) (m : ℕ) : List (Vec3 Fl × Fl) × ℕ :=
  samplePixel rot focal factor im (m / im.cols) acc (m % im.cols)

theorem rows_foldl (rot : Vec3 Fl → Vec3 Fl) (focal : Fl) (factor : ℤ) (im : Image) (acc : List (Vec3 Fl × Fl) × ℕ) (r : ℕ) :
    (List.range r).foldl (sampleRow rot focal factor im) acc = (List.range (r * im.cols)).foldl (pixelStep rot focal factor im) acc := by
  induction r with
  | zero => simp
  | succ r ih =>
    rw [List.range_succ, List.foldl_append, ih, Nat.succ_mul, List.range_add, List.foldl_append, List.foldl_map]
    generalize (List.range (r * im.cols)).foldl (pixelStep rot focal factor im) acc = a
    show (List.range im.cols).foldl (samplePixel rot focal factor im r) a = _
    refine List.foldl_ext _ _ _ fun s j hj => ?_
    have hj := List.mem_range.1 hj
    unfold pixelStep
    have e1 : (r * im.cols + j) / im.cols = r := by
      rw [mul_comm, Nat.mul_add_div (by omega), Nat.div_eq_of_lt hj, Nat.add_zero]
    have e2 : (r * im.cols + j) % im.cols = j := by
      rw [mul_comm, Nat.mul_add_mod, Nat.mod_eq_of_lt hj]
    rw [e1, e2]

theorem pixels_foldl (rot : Vec3 Fl → Vec3 Fl) (focal : Fl) (factor : ℤ) (im : Image) (n : ℕ) :
    (List.range n).foldl (pixelStep rot focal factor im) ([], 0) =
      (((List.range n).filter fun m => sampled factor m).map fun m => (rot (bearing im.rows im.cols focal (m / im.cols) (m % im.cols)),
        im.pixel (m / im.cols) (m % im.cols)), n) := by
  induction n with
  | zero => rfl
  | succ n ih =>
    rw [List.range_succ, List.foldl_append, ih, List.filter_append, List.map_append]
    show (_, _) = (_, _)
    dsimp only
    by_cases h : sampled factor n = true
    · simp [h]
    · simp [h]

theorem filter_multiples {f : ℕ} (hf : 0 < f) (n : ℕ) : ((List.range n).filter fun m => decide (m % f = 0)) = (List.range ((n + f - 1) / f)).map fun k => k * f := by
  induction n with
  | zero =>
    have : (0 + f - 1) / f = 0 := Nat.div_eq_of_lt (by omega)
    rw [this]
    rfl
  | succ n ih =>
    rw [List.range_succ, List.filter_append, ih]
    by_cases h : n % f = 0
    · have e0 : n = n / f * f := (Nat.div_mul_cancel (Nat.dvd_of_mod_eq_zero h)).symm
      have e1 : (n + f - 1) / f = n / f := by
        have : n + f - 1 = f * (n / f) + (f - 1) := by rw [mul_comm, ← e0]; omega
        rw [this, Nat.mul_add_div hf, Nat.div_eq_of_lt (show f - 1 < f by omega), Nat.add_zero]
      have e2 : (n + 1 + f - 1) / f = n / f + 1 := by
        have : n + 1 + f - 1 = n + f := by omega
        rw [this, Nat.add_div_right _ hf]
      rw [e1, e2, List.range_succ, List.map_append]
      simp [h, ← e0]
    · have e1 : (n + 1 + f - 1) / f = (n + f - 1) / f := by
        have hlt := Nat.mod_lt n hf
        have d := Nat.div_add_mod n f
        have a1 : n + 1 + f - 1 = f * (n / f + 1) + n % f := by rw [Nat.mul_add]; omega
        have a2 : n + f - 1 = f * (n / f + 1) + (n % f - 1) := by rw [Nat.mul_add]; omega
        rw [a1, a2, Nat.mul_add_div hf, Nat.mul_add_div hf, Nat.div_eq_of_lt hlt, Nat.div_eq_of_lt (show n % f - 1 < f by omega)]
      rw [e1]
      simp [h]

/-! ### Rays -/

theorem rnd32_half {n : ℤ} (h : |n| ≤ 2 ^ 24) : rnd32 (n / 2) = n / 2 := by
  have := rne_exact (p := 24) (qmin := -149) (by norm_num) (k := n) (e := -1) (by exact_mod_cast h) (by norm_num)
  have e : pow2 (-1) = 1 / 2 := by norm_num [pow2]
  rw [e, mul_one_div] at this
  exact this

theorem rnd64_half {n : ℤ} (h : |n| ≤ 2 ^ 24) : rnd64 (n / 2) = n / 2 := by
  have := rne_exact (p := 53) (qmin := -1074) (by norm_num) (k := n) (e := -1) (le_trans h (by norm_num)) (by norm_num)
  have e : pow2 (-1) = 1 / 2 := by norm_num [pow2]
  rw [e, mul_one_div] at this
  exact this

theorem float32_half {n : ℤ} (h : |n| ≤ 2 ^ 24) : float32.rnd (n / 2) = .fin (n / 2) := by
  have : |(n : ℚ)| ≤ 2 ^ 24 := by exact_mod_cast h
  show overflow (2 ^ 128) (rnd32 (n / 2)) = _
  rw [rnd32_half h, overflow_of_lt]
  rw [abs_div]
  norm_num at this ⊢
  linarith

theorem float64_half {n : ℤ} (h : |n| ≤ 2 ^ 24) : float64.rnd (n / 2) = .fin (n / 2) := by
  have : |(n : ℚ)| ≤ 2 ^ 24 := by exact_mod_cast h
  show overflow (2 ^ 1024) (rnd64 (n / 2)) = _
  rw [rnd64_half h, overflow_of_lt]
  rw [abs_div]
  have hp : (2 : ℚ) ^ 24 ≤ 2 ^ 1024 := pow_le_pow_right₀ (by norm_num) (by norm_num)
  generalize (2 : ℚ) ^ 1024 = P at hp
  norm_num at this hp ⊢
  linarith [abs_nonneg (n : ℚ)]

/-- One coordinate of a ray. -/
theorem offset {n j : ℕ} (hn : n ≤ 2 ^ 23) (hj : j ≤ 2 ^ 23) :
    float32.sub (float32.rnd j) (toFloat (float64.div (float64.rnd n) (.fin 2))) = .fin (j - n / 2) := by
  have b : ∀ k : ℕ, k ≤ 2 ^ 23 → |((2 * k : ℕ) : ℤ)| ≤ 2 ^ 24 := by
    intro k hk
    rw [abs_of_nonneg (by positivity)]
    omega
  have c : ∀ k : ℕ, (((2 * k : ℕ) : ℤ) : ℚ) / 2 = k := by
    intro k
    push_cast
    ring
  have r1 := float32_half (b j hj)
  have r2 := float64_half (b n hn)
  rw [c] at r1 r2
  have hn' : |(n : ℤ)| ≤ 2 ^ 24 := by
    rw [abs_of_nonneg (by positivity)]
    omega
  have r3 := float64_half hn'
  have r4 := float32_half hn'
  have hd : |(2 * j - n : ℤ)| ≤ 2 ^ 24 := by
    rw [abs_le]
    omega
  have r5 := float32_half hd
  have e : ((2 * j - n : ℤ) : ℚ) / 2 = j - n / 2 := by
    push_cast
    ring
  rw [e] at r5
  rw [r1, r2]
  have d : float64.div (.fin n) (.fin 2) = float64.rnd (((n : ℤ) : ℚ) / 2) := by
    show (if (2 : ℚ) = 0 then Fl.infOfSign n else float64.rnd ((n : ℚ) / 2)) = _
    rw [if_neg (by norm_num)]
    rfl
  rw [d, r3]
  show float32.sub _ (float32.rnd (((n : ℤ) : ℚ) / 2)) = _
  rw [r4]
  show float32.rnd ((j : ℚ) + -(((n : ℤ) : ℚ) / 2)) = _
  rw [← sub_eq_add_neg]
  exact r5

theorem bearing_eq {rows cols : ℕ} (hr : rows ≤ 2 ^ 23) (hc : cols ≤ 2 ^ 23) {focal : Fl} {i j : ℕ} (hi : i ≤ 2 ^ 23) (hj : j ≤ 2 ^ 23) :
    bearing rows cols focal i j = Occ.normalized float32 ⟨.fin (j - cols / 2), .fin (i - rows / 2), toFloat focal⟩ := by
  unfold bearing
  rw [offset hc hj, offset hr hi]

end Vox.IntensityVis
