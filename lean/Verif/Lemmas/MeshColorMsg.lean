/-
Mesh messages: colours, definedness of the sender, decoding of a block.
-/
import Verif.Lemmas.MeshBlockMsg
import Verif.Lemmas.ColorMap

namespace Vox.MeshMsg

open MC MeshInt Spec Ieee
open IndexF (u eta Size)

set_option maxRecDepth 100000 in
theorem channel_table : ∀ c : Fin 256, channelBytes (channelToMsg (BitVec.ofFin c)) = .ok (BitVec.ofFin c) ∧
    channelFromMsg (channelToMsg (BitVec.ofFin c)) = .ok (BitVec.ofFin c) ∧
    (match channelToMsg (BitVec.ofFin c) with | .fin q => decide (0 ≤ q ∧ q ≤ 1) | _ => false) = true := by
  decide +kernel

theorem channel_bytes (c : BitVec 8) : channelBytes (channelToMsg c) = .ok c := (channel_table c.toFin).1

theorem channel_msg (c : BitVec 8) : channelFromMsg (channelToMsg c) = .ok c := (channel_table c.toFin).2.1

theorem channel_unit (c : BitVec 8) : ∃ q, channelToMsg c = .fin q ∧ 0 ≤ q ∧ q ≤ 1 := by
  have h := (channel_table c.toFin).2.2
  have e : (BitVec.ofFin c.toFin : BitVec 8) = c := rfl
  rw [e] at h
  cases hc : channelToMsg c with
  | fin q => rw [hc] at h; exact ⟨q, rfl, by simpa using h⟩
  | _ => rw [hc] at h; cases h

theorem rnd32_255 : rnd32 255 = 255 := by simpa using IndexF.rnd32_int (n := 255) (by norm_num)

theorem bytes_defined {q : ℚ} (h0 : 0 ≤ q) (h1 : q ≤ 1) : ∃ c, channelBytes (.fin q) = .ok c := by
  have lo : 0 ≤ rnd32 (255 * q) := rne_nonneg (by linarith)
  have hi := rnd32_mono (show 255 * q ≤ 255 by linarith)
  rw [rnd32_255] at hi
  have f : float32.rnd (255 * q) = .fin (rnd32 (255 * q)) := rnd_of_lt (by rw [abs_of_nonneg lo]; exact lt_of_le_of_lt hi (by norm_num))
  have e : channelBytes (.fin q) = toByte (float32.rnd (255 * q)) := rfl
  rw [e, f]
  unfold toByte ColorMap.toByte
  dsimp only
  rw [if_pos ⟨by linarith, by linarith⟩]
  exact ⟨_, rfl⟩

/-- All three channels convert. -/
def Bytes (c : ColorMsg) : Prop := (∃ b, channelBytes c.x = .ok b) ∧ (∃ b, channelBytes c.y = .ok b) ∧ ∃ b, channelBytes c.z = .ok b

theorem colorToMsg_bytes (c : Color) : Bytes (colorToMsg c) := ⟨⟨_, channel_bytes _⟩, ⟨_, channel_bytes _⟩, _, channel_bytes _⟩

/-- A finite value of bounded size. -/
def Bounded (B : ℚ) (x : Fl) : Prop := ∃ q, x = .fin q ∧ |q| ≤ B

theorem bounded_mul {A B : ℚ} {x y : Fl} (hA : 0 ≤ A) (hx : Bounded A x) (hy : Bounded B y) (hs : A * B ≤ 1000) :
    Bounded (2 * (A * B) + 1) (float32.mul x y) := by
  obtain ⟨a, rfl, ha⟩ := hx
  obtain ⟨b, rfl, hb⟩ := hy
  have h : |a * b| ≤ A * B := by rw [abs_mul]; exact mul_le_mul ha hb (abs_nonneg _) hA
  have r := rnd32_abs h
  exact ⟨rnd32 (a * b), rnd_of_lt (lt_of_le_of_lt r (by
    have : (2001 : ℚ) < 2 ^ 128 := by norm_num
    linarith)), r⟩

theorem bounded_add {A B : ℚ} {x y : Fl} (hx : Bounded A x) (hy : Bounded B y) (hs : A + B ≤ 1000) :
    Bounded (2 * (A + B) + 1) (float32.add x y) := by
  obtain ⟨a, rfl, ha⟩ := hx
  obtain ⟨b, rfl, hb⟩ := hy
  have h : |a + b| ≤ A + B := (abs_add_le _ _).trans (add_le_add ha hb)
  have r := rnd32_abs h
  exact ⟨rnd32 (a + b), rnd_of_lt (lt_of_le_of_lt r (by
    have : (2001 : ℚ) < 2 ^ 128 := by norm_num
    linarith)), r⟩

theorem bounded_mono {A B : ℚ} {x : Fl} (h : Bounded A x) (hAB : A ≤ B) : Bounded B x := by
  obtain ⟨q, e, hq⟩ := h
  exact ⟨q, e, hq.trans hAB⟩

theorem light_table : (∀ d ∈ [lightDir, lightDir2], (match d with
    | ⟨.fin a, .fin b, .fin c⟩ => decide (|a| ≤ 1 ∧ |b| ≤ 1 ∧ |c| ≤ 1)
    | _ => false) = true) ∧ (match float32.rnd (2 / 10) with | .fin q => decide (0 ≤ q ∧ q ≤ 1) | _ => false) = true := by
  decide +kernel

theorem light_bounded {d : Vec3 Fl} (h : d ∈ [lightDir, lightDir2]) : Bounded 1 d.x ∧ Bounded 1 d.y ∧ Bounded 1 d.z := by
  have k := light_table.1 d h
  clear h
  obtain ⟨x, y, z⟩ := d
  cases x <;> cases y <;> cases z <;> first
    | cases k
    | (have k := of_decide_eq_true k; exact ⟨⟨_, rfl, k.1⟩, ⟨_, rfl, k.2.1⟩, ⟨_, rfl, k.2.2⟩⟩)

theorem ambient : ∃ q, float32.rnd (2 / 10) = .fin q ∧ 0 ≤ q ∧ q ≤ 1 := by
  have h := light_table.2
  split at h
  · next q e => exact ⟨q, e, of_decide_eq_true h⟩
  · cases h

/-- A normal with finite components of size at most two. -/
def GoodNormal (n : Vec3 Fl) : Prop := Bounded 2 n.x ∧ Bounded 2 n.y ∧ Bounded 2 n.z

/-- A channel of shaded colour. -/
theorem shade {n d : Vec3 Fl} (hn : GoodNormal n) (hd : d ∈ [lightDir, lightDir2]) :
    ∃ f, (if Fl.lt (float32.dot n d) (.fin 0) then .fin 0 else float32.dot n d) = Fl.fin f ∧ 0 ≤ f ∧ f ≤ 60 := by
  obtain ⟨dx, dy, dz⟩ := light_bounded hd
  have h1 := bounded_mul (by norm_num) hn.1 dx (by norm_num)
  have h2 := bounded_mul (by norm_num) hn.2.1 dy (by norm_num)
  have h3 := bounded_mul (by norm_num) hn.2.2 dz (by norm_num)
  have h4 := bounded_add (bounded_add h1 h2 (by norm_num)) h3 (by norm_num)
  obtain ⟨q, e, hq⟩ := h4
  have e' : float32.dot n d = .fin q := e
  rw [e']
  by_cases hc : q < 0
  · exact ⟨0, by simp [Fl.lt, hc], le_rfl, by norm_num⟩
  · have hq := abs_le.1 hq
    refine ⟨q, by simp [Fl.lt, hc], by linarith, ?_⟩
    norm_num at hq
    linarith

/-- A channel before clamping: finite and not negative. -/
theorem lit {f1 f2 c : ℚ} (h1 : 0 ≤ f1) (g1 : f1 ≤ 60) (h2 : 0 ≤ f2) (g2 : f2 ≤ 60) (c0 : 0 ≤ c) (c1 : c ≤ 1) :
    ∃ q, (fun x => if Fl.lt (.fin 1) x then .fin 1 else x)
      (float32.add (float32.add (float32.mul (.fin f1) (.fin c)) (float32.mul (.fin f2) (.fin c))) (float32.rnd (2 / 10))) = Fl.fin q ∧
      0 ≤ q ∧ q ≤ 1 := by
  obtain ⟨amb, ea, a0, a1⟩ := ambient
  have bf : ∀ {f : ℚ}, 0 ≤ f → f ≤ 60 → Bounded 60 (.fin f) := fun h g => ⟨_, rfl, by rw [abs_of_nonneg h]; exact g⟩
  have bc : Bounded 1 (.fin c) := ⟨_, rfl, by rw [abs_of_nonneg c0]; exact c1⟩
  have m1 := bounded_mul (by norm_num) (bf h1 g1) bc (by norm_num)
  have m2 := bounded_mul (by norm_num) (bf h2 g2) bc (by norm_num)
  have ba : Bounded 1 (float32.rnd (2 / 10)) := ⟨amb, ea, by rw [abs_of_nonneg a0]; exact a1⟩
  obtain ⟨q, e, -⟩ := bounded_add (bounded_add m1 m2 (by norm_num)) ba (by norm_num)
  have hq : 0 ≤ q := by
    obtain ⟨s, t, hs, ht, rfl⟩ := add_fin e
    obtain ⟨s1, s2, hs1, hs2, rfl⟩ := add_fin hs
    have k1 : 0 ≤ s1 := by rw [rnd_fin hs1]; exact rne_nonneg (mul_nonneg h1 c0)
    have k2 : 0 ≤ s2 := by rw [rnd_fin hs2]; exact rne_nonneg (mul_nonneg h2 c0)
    have k3 : 0 ≤ t := by
      have := Fl.fin.inj (ea.symm.trans ht)
      linarith
    exact rne_nonneg (add_nonneg (rne_nonneg (add_nonneg k1 k2)) k3)
  rw [e]
  by_cases hc : 1 < q
  · exact ⟨1, by simp [Fl.lt, hc], by norm_num, le_rfl⟩
  · exact ⟨q, by simp [Fl.lt, hc], hq, by linarith⟩

theorem lambertColor_bytes (c : Color) {n : Vec3 Fl} (hn : GoodNormal n) : Bytes (lambertColor c n) := by
  obtain ⟨f1, e1, a1, b1⟩ := shade hn (d := lightDir) (by simp)
  obtain ⟨f2, e2, a2, b2⟩ := shade hn (d := lightDir2) (by simp)
  obtain ⟨cr, er, r0, r1⟩ := channel_unit c.r
  obtain ⟨cg, eg, g0, g1⟩ := channel_unit c.g
  obtain ⟨cb, eb, b0, b1'⟩ := channel_unit c.b
  obtain ⟨qr, hr, p1, p2⟩ := lit a1 b1 a2 b2 r0 r1
  obtain ⟨qg, hg, p3, p4⟩ := lit a1 b1 a2 b2 g0 g1
  obtain ⟨qb, hb, p5, p6⟩ := lit a1 b1 a2 b2 b0 b1'
  have k : lambertColor c n = ⟨.fin qr, .fin qg, .fin qb⟩ := by
    unfold lambertColor lambertShading
    dsimp only
    rw [e1, e2]
    unfold colorToMsg
    rw [er, eg, eb]
    rw [← hr, ← hg, ← hb]
    rfl
  rw [k]
  exact ⟨bytes_defined p1 p2, bytes_defined p3 p4, bytes_defined p5 p6⟩

theorem overflow_ne_nan (L x : ℚ) : overflow L x ≠ .nan := by
  unfold overflow
  split_ifs <;> simp

theorem toFloat_ne_nan {x : Fl} (h : x ≠ .nan) : toFloat x ≠ .nan := by
  cases x with
  | nan => exact absurd rfl h
  | fin q => exact overflow_ne_nan _ _
  | _ => simp [toFloat]

theorem rnd64_nat {k : ℕ} (h : k ≤ 255) : rnd64 k = k := by
  have := rne_exact (p := 53) (qmin := -1074) (by norm_num) (k := (k : ℤ)) (e := 0) (by
    rw [abs_of_nonneg (by positivity)]
    have : (k : ℤ) ≤ 255 := by exact_mod_cast h
    have n : (255 : ℤ) ≤ 2 ^ 53 := by norm_num
    omega) (by norm_num)
  have e : pow2 0 = 1 := by simp [pow2]
  rw [e, mul_one] at this
  unfold rnd64
  simpa using this

/-- Every finite height has a colour. -/
theorem heightColor_bytes (z : ℚ) : ∃ c, heightColor (.fin z) = .ok c ∧ Bytes c := by
  have n1 : float64.sub (.fin z) (.fin (-1)) ≠ .nan := overflow_ne_nan _ _
  have n2 : float64.div (float64.sub (.fin z) (.fin (-1))) (.fin 11) ≠ .nan := by
    cases hs : float64.sub (.fin z) (.fin (-1)) with
    | nan => exact absurd hs n1
    | fin q =>
      unfold Arith.div
      dsimp only
      rw [if_neg (by norm_num)]
      exact overflow_ne_nan _ _
    | ninf => unfold Arith.div; dsimp only; rw [if_pos (by norm_num)]; simp
    | pinf => unfold Arith.div; dsimp only; rw [if_pos (by norm_num)]; simp
  have n3 := toFloat_ne_nan n2
  have fin : ∃ q, (fun h : Fl => if Fl.lt (.fin 1) h then Fl.fin 1 else h)
      ((fun h : Fl => if Fl.lt h (.fin 0) then Fl.fin 0 else h) (toFloat (float64.div (float64.sub (.fin z) (.fin (-1))) (.fin 11)))) = .fin q := by
    cases hs : toFloat (float64.div (float64.sub (.fin z) (.fin (-1))) (.fin 11)) with
    | nan => exact absurd hs n3
    | ninf => exact ⟨0, by simp [Fl.lt]⟩
    | pinf => exact ⟨1, by simp [Fl.lt]⟩
    | fin q =>
      by_cases h0 : q < 0
      · exact ⟨0, by simp [Fl.lt, h0]⟩
      · by_cases h1 : 1 < q
        · exact ⟨1, by simp [Fl.lt, h0, h1]⟩
        · exact ⟨q, by simp [Fl.lt, h0, h1]⟩
  obtain ⟨q, hq⟩ := fin
  obtain ⟨c, hc, -⟩ := ColorMap.rainbow_rounded (rnd := rnd64) (fun a b h => rne_mono (by norm_num) h) (fun k hk => rnd64_nat hk) q
  refine ⟨colorToMsg c, ?_, colorToMsg_bytes c⟩
  have e : heightColor (.fin z) = (match (fun h : Fl => if Fl.lt (.fin 1) h then Fl.fin 1 else h)
      ((fun h : Fl => if Fl.lt h (.fin 0) then Fl.fin 0 else h) (toFloat (float64.div (float64.sub (.fin z) (.fin (-1))) (.fin 11)))) with
    | .fin q => do
      let c ← ColorMap.rainbow rnd64 q
      pure (colorToMsg c)
    | _ => .ub) := rfl
  rw [e, hq]
  dsimp only
  rw [hc]
  rfl

/-- What the sender relies on: as many colours and normals as vertices where the mode reads them, and good normals. -/
structure Sendable (mode : ColorMode) (m : Mesh) : Prop where
  colors : mode = .color ∨ mode = .lambertColor → m.vertices.length ≤ m.colors.length
  normals : mode = .lambert ∨ mode = .lambertColor → m.vertices.length ≤ m.normals.length ∧ ∀ n ∈ m.normals, GoodNormal n

theorem vertexColor_bytes {mode : ColorMode} {m : Mesh} (hm : Sendable mode m) (hmode : mode ≠ .normals) {k : ℕ} {v : Vec3 Fl}
    (hv : m.vertices[k]? = some v) (hz : ∃ z, v.z = .fin z) : ∃ c, vertexColor m mode k = .ok c ∧ Bytes c := by
  have hk : k < m.vertices.length := (List.getElem?_eq_some_iff.1 hv).1
  cases mode with
  | color =>
    have h := hm.colors (by simp)
    refine ⟨colorToMsg (m.colors[k]'(by omega)), ?_, colorToMsg_bytes _⟩
    unfold vertexColor
    dsimp only
    rw [MeshOps.at_ok (by omega)]
    rfl
  | height =>
    obtain ⟨z, hz⟩ := hz
    obtain ⟨c, hc, hb⟩ := heightColor_bytes z
    refine ⟨c, ?_, hb⟩
    unfold vertexColor
    dsimp only
    rw [some_at hv, Outcome.bind_ok, hz, hc]
  | normals => exact absurd rfl hmode
  | gray =>
    refine ⟨_, rfl, ?_, ?_, ?_⟩ <;> exact bytes_defined (by norm_num) (by norm_num)
  | lambert =>
    have h := hm.normals (by simp)
    refine ⟨lambertGray (m.normals[k]'(by omega)), ?_, lambertColor_bytes _ (h.2 _ (List.getElem_mem _))⟩
    unfold vertexColor
    dsimp only
    rw [MeshOps.at_ok (by omega)]
    rfl
  | lambertColor =>
    have h := hm.normals (by simp)
    have h' := hm.colors (by simp)
    refine ⟨MeshMsg.lambertColor (m.colors[k]'(by omega)) (m.normals[k]'(by omega)), ?_, lambertColor_bytes _ (h.2 _ (List.getElem_mem _))⟩
    unfold vertexColor
    dsimp only
    rw [MeshOps.at_ok (by omega), Outcome.bind_ok, MeshOps.at_ok (by omega)]
    rfl

theorem vertexBlock_defined {inv : Fl} {mode : ColorMode} {i : Idx} {m : Mesh} (hm : Sendable mode m) (b : MeshBlock) {k : ℕ} {v : Vec3 Fl} (hv : m.vertices[k]? = some v) :
    (encodeVertex inv i v = .fatal → vertexBlock inv mode i m b k = .fatal) ∧
    (∀ p, encodeVertex inv i v = .ok p → ∃ b', vertexBlock inv mode i m b k = .ok b') := by
  constructor
  · intro h
    unfold vertexBlock
    rw [some_at hv, Outcome.bind_ok, h]
    rfl
  · intro p hp
    obtain ⟨-, -, c, -, -, hz, -⟩ := encodeVertex_ok hp
    unfold vertexBlock
    rw [some_at hv, Outcome.bind_ok, hp, Outcome.bind_ok]
    dsimp only
    split
    · exact ⟨_, rfl⟩
    · next hn =>
      obtain ⟨col, hc, ⟨r, hr⟩, ⟨g, hg⟩, bb, hb⟩ := vertexColor_bytes hm hn hv (normalized1_fin hz)
      rw [hc, Outcome.bind_ok, hr, Outcome.bind_ok, hg, Outcome.bind_ok, hb, Outcome.bind_ok]
      exact ⟨_, rfl⟩

/-- The message of a block: refused by a check or complete. -/
theorem encode_defined {inv : Fl} {mode : ColorMode} {i : Idx} {m : Mesh} (hm : Sendable mode m) :
    (encodeBlock inv mode i m ≠ .ub) ∧ ((∀ v ∈ m.vertices, ∃ p, encodeVertex inv i v = .ok p) → ∃ b, encodeBlock inv mode i m = .ok b) := by
  have gen : ∀ (ks : List ℕ) (b : MeshBlock), (∀ k ∈ ks, k < m.vertices.length) →
      ks.foldlM (vertexBlock inv mode i m) b ≠ .ub ∧
      ((∀ v ∈ m.vertices, ∃ p, encodeVertex inv i v = .ok p) → ∃ b', ks.foldlM (vertexBlock inv mode i m) b = .ok b') := by
    intro ks
    induction ks with
    | nil => intro b _; exact ⟨nofun, fun _ => ⟨b, rfl⟩⟩
    | cons k ks ih =>
      intro b hks
      have hk := hks k (by simp)
      have hv := List.getElem?_eq_getElem hk
      obtain ⟨d1, d2⟩ := vertexBlock_defined (inv := inv) (i := i) hm b hv
      rw [List.foldlM_cons]
      cases he : encodeVertex inv i m.vertices[k] with
      | ub => exact absurd he (encodeVertex_defined _ _ _)
      | fatal =>
        rw [d1 he]
        refine ⟨nofun, fun hall => ?_⟩
        obtain ⟨p, hp⟩ := hall _ (List.getElem_mem hk)
        rw [he] at hp
        cases hp
      | ok p =>
        obtain ⟨b', hb'⟩ := d2 p he
        rw [hb', Outcome.bind_ok]
        exact ih b' fun k h => hks k (by simp [h])
  have := gen (List.range m.vertices.length) ⟨i, [], [], [], [], [], []⟩ fun k h => List.mem_range.1 h
  exact this

/-- What the display makes of a block with colours. -/
theorem decode_block {s : ℚ} (hs : Size s) {mode : ColorMode} (hmode : mode ≠ .normals) {i : Idx}
    (hi : |i.x| ≤ 2 ^ 31 ∧ |i.y| ≤ 2 ^ 31 ∧ |i.z| ≤ 2 ^ 31) {m : Mesh} (h3 : 3 ∣ m.vertices.length) {b : MeshBlock}
    (h : encodeBlock (.fin (IndexF.inverse s)) mode i m = .ok b) :
    ∃ md, decodeBlock (.fin s) b = .ok md ∧ md.vertices.length = m.vertices.length ∧ md.colors.length = m.vertices.length ∧
      md.normals.length = m.vertices.length ∧ md.indices = List.range m.vertices.length ∧
      ∀ k < m.vertices.length, ∃ (w : Vec3 ℚ) (p : Vec3 Fl) (c : ColorMsg) (cd : Color),
        m.vertices[k]? = some ⟨.fin w.x, .fin w.y, .fin w.z⟩ ∧ md.vertices[k]? = some p ∧
        FloatNear p.x w.x (s * (2 / 65535 + 8 * u * (|(i.x : ℚ)| + 3))) ∧ FloatNear p.y w.y (s * (2 / 65535 + 8 * u * (|(i.y : ℚ)| + 3))) ∧
        FloatNear p.z w.z (s * (2 / 65535 + 8 * u * (|(i.z : ℚ)| + 3))) ∧
        vertexColor m mode k = .ok c ∧ md.colors[k]? = some cd ∧ channelBytes c.x = .ok cd.r ∧ channelBytes c.y = .ok cd.g ∧
        channelBytes c.z = .ok cd.b ∧ cd.a = 255 := by
  obtain ⟨hidx, lx, ly, lz, hcol, -, hk⟩ := encode_prefix _ _ h
  obtain ⟨lr, lg, lb⟩ := hcol hmode
  obtain ⟨vs, e1, l1, g1⟩ := Merge.mapM_range (f := decodeVertex (.fin s) b)
    (P := fun k p => ∃ w : Vec3 ℚ, m.vertices[k]? = some ⟨.fin w.x, .fin w.y, .fin w.z⟩ ∧
        FloatNear p.x w.x (s * (2 / 65535 + 8 * u * (|(i.x : ℚ)| + 3))) ∧ FloatNear p.y w.y (s * (2 / 65535 + 8 * u * (|(i.y : ℚ)| + 3))) ∧
        FloatNear p.z w.z (s * (2 / 65535 + 8 * u * (|(i.z : ℚ)| + 3)))) b.x.length (by
      intro k hkl
      obtain ⟨v, p, a1, a2, a3, a4, a5, -⟩ := hk k (by omega)
      obtain ⟨w, hw, -, -, -, wx, wy, wz⟩ := vertex_near hs hi a2
      refine ⟨⟨decode1 (.fin s) i.x p.x, decode1 (.fin s) i.y p.y, decode1 (.fin s) i.z p.z⟩, ?_, w, by rw [a1, hw], wx, wy, wz⟩
      unfold decodeVertex
      rw [some_at a3, Outcome.bind_ok, some_at a4, Outcome.bind_ok, some_at a5, Outcome.bind_ok, hidx]
      rfl)
  obtain ⟨t, ht⟩ := h3
  have hvl : vs.length = 3 * t := by omega
  obtain ⟨ns, e2, l2, g2⟩ := Merge.mapM_range (f := triangleNormals vs) (P := fun _ n => n.length = 3) ((vs.length + 2) / 3) (by
      intro k hkl
      have : 3 * k + 2 < vs.length := by omega
      unfold triangleNormals
      rw [MeshOps.at_ok (show 3 * k < vs.length by omega), Outcome.bind_ok, MeshOps.at_ok (show 3 * k + 1 < vs.length by omega), Outcome.bind_ok,
        MeshOps.at_ok this, Outcome.bind_ok]
      exact ⟨_, rfl, rfl⟩)
  have hnl : ns.flatten.length = m.vertices.length := by
    have hall : ∀ n ∈ ns, n.length = 3 := by
      intro n hn
      obtain ⟨k, hkl, hkn⟩ := List.getElem_of_mem hn
      obtain ⟨y, hy, h3⟩ := g2 k (by omega)
      rw [List.getElem?_eq_getElem hkl, hkn] at hy
      rw [Option.some.inj hy]
      exact h3
    have : ∀ l : List (List (Vec3 Fl)), (∀ n ∈ l, n.length = 3) → l.flatten.length = 3 * l.length := by
      intro l
      induction l with
      | nil => simp
      | cons a l ih =>
        intro h
        rw [List.flatten_cons, List.length_append, h a (by simp), ih fun n hn => h n (by simp [hn]), List.length_cons]
        omega
    rw [this ns hall, l2]
    omega
  obtain ⟨cs, e3, l3, g3⟩ := Merge.mapM_range (f := displayColor b ns.flatten)
    (P := fun k cd => ∃ c, vertexColor m mode k = .ok c ∧ channelBytes c.x = .ok cd.r ∧ channelBytes c.y = .ok cd.g ∧
        channelBytes c.z = .ok cd.b ∧ cd.a = 255) b.x.length (by
      intro k hkl
      obtain ⟨v, p, -, -, -, -, -, a6⟩ := hk k (by omega)
      obtain ⟨c, cr, cg, cb, c1, c2, c3, c4, c5, c6, c7⟩ := a6 hmode
      refine ⟨⟨cr, cg, cb, 255⟩, ?_, c, c1, c2, c3, c4, rfl⟩
      unfold displayColor
      rw [if_pos (by omega), some_at c5, Outcome.bind_ok, some_at c6, Outcome.bind_ok, some_at c7, Outcome.bind_ok]
      rfl)
  refine ⟨⟨vs, List.range b.x.length, ns.flatten, cs, false⟩, ?_, by dsimp only; omega, by dsimp only; omega, hnl, by dsimp only; rw [lx], ?_⟩
  · unfold decodeBlock
    rw [e1, Outcome.bind_ok, e2, Outcome.bind_ok, e3, Outcome.bind_ok]
    rfl
  · intro k hkl
    obtain ⟨p, hp, w, hw, wx, wy, wz⟩ := g1 k (by omega)
    obtain ⟨cd, hcd, c, c1, c2, c3, c4, c5⟩ := g3 k (by omega)
    exact ⟨w, p, c, cd, hw, hp, wx, wy, wz, c1, hcd, c2, c3, c4, c5⟩

theorem rnd_neg (x : ℚ) : float32.rnd (-x) = (float32.rnd x).neg := by
  show overflow (2 ^ 128) (rnd32 (-x)) = (overflow (2 ^ 128) (rnd32 x)).neg
  have h : rnd32 (-x) = -rnd32 x := rne_neg x
  rw [h]
  generalize rnd32 x = y
  have big : (0 : ℚ) < 2 ^ 128 := by positivity
  generalize (2 : ℚ) ^ 128 = B at *
  unfold overflow
  by_cases h1 : B ≤ y
  · rw [if_pos h1, if_neg (by linarith), if_pos (by linarith)]
    rfl
  · rw [if_neg h1]
    by_cases h2 : y ≤ -B
    · rw [if_pos h2, if_pos (by linarith)]
      rfl
    · rw [if_neg h2, if_neg (by linarith), if_neg (by linarith)]
      rfl

theorem sub_swap (a b : Fl) : float32.sub a b = (float32.sub b a).neg := by
  cases a <;> cases b <;> try rfl
  rename_i x y
  show float32.rnd (x + -y) = (float32.rnd (y + -x)).neg
  rw [← rnd_neg]
  congr 1
  ring

theorem mul_neg_neg (a b : Fl) : float32.mul a.neg b.neg = float32.mul a b := by
  cases a <;> cases b <;> try rfl
  · rename_i x y
    show float32.rnd (-x * -y) = float32.rnd (x * y)
    rw [_root_.neg_mul_neg]
  · rename_i x
    show Fl.infOfSign (- -x) = Fl.infOfSign x
    rw [neg_neg]
  · rename_i x
    show Fl.infOfSign (- -x) = Fl.infOfSign x
    rw [neg_neg]

/-- Both differences the other way round give the same cross product. -/
theorem normal_swap (p0 p1 p2 : Vec3 Fl) :
    Occ.normalized float32 (cross float32 (float32.vsub p0 p1) (float32.vsub p0 p2)) = triNormal float32 p0 p1 p2 := by
  unfold triNormal
  congr 1
  unfold cross Arith.vsub
  simp only [Vec3.map₂]
  rw [sub_swap p0.x p1.x, sub_swap p0.y p1.y, sub_swap p0.z p1.z, sub_swap p0.x p2.x, sub_swap p0.y p2.y, sub_swap p0.z p2.z]
  simp only [mul_neg_neg]

/-- The normals of the display. -/
theorem decode_normals {edge : Fl} {b : MeshBlock} {md : Mesh} (h : decodeBlock edge b = .ok md) :
    md.normals.length = md.vertices.length ∧ ∀ t, 3 * t < md.vertices.length → ∃ p0 p1 p2,
      md.vertices[3 * t]? = some p0 ∧ md.vertices[3 * t + 1]? = some p1 ∧ md.vertices[3 * t + 2]? = some p2 ∧
      ∀ j < 3, md.normals[3 * t + j]? = some (triNormal float32 p0 p1 p2) := by
  unfold decodeBlock at h
  obtain ⟨vs, -, h⟩ := Outcome.bind_eq_ok.1 h
  obtain ⟨ns, h2, h⟩ := Outcome.bind_eq_ok.1 h
  obtain ⟨cs, -, h⟩ := Outcome.bind_eq_ok.1 h
  obtain rfl := Outcome.ok.inj h
  dsimp only
  have at_inv : ∀ {α : Type} (l : List α) (k : ℕ) (x : α), MeshOps.at_ l k = .ok x → l[k]? = some x := by
    intro α l k x hx
    unfold MeshOps.at_ at hx
    cases hk : l[k]? with
    | none => rw [hk] at hx; cases hx
    | some y => rw [hk] at hx; rw [Outcome.ok.inj hx]
  have gen : ∀ (n : ℕ) (ns : List (List (Vec3 Fl))), (List.range n).mapM (triangleNormals vs) = .ok ns →
      ns.flatten.length = 3 * n ∧ ∀ t < n, ∃ p0 p1 p2, vs[3 * t]? = some p0 ∧ vs[3 * t + 1]? = some p1 ∧ vs[3 * t + 2]? = some p2 ∧
        ∀ j < 3, ns.flatten[3 * t + j]? = some (triNormal float32 p0 p1 p2) := by
    intro n
    induction n with
    | zero =>
      intro ns h
      have : ns = [] := (Outcome.ok.inj h).symm
      subst this
      exact ⟨rfl, by simp⟩
    | succ n ih =>
      intro ns h
      rw [List.range_succ, List.mapM_append] at h
      obtain ⟨ys, h1, h⟩ := Outcome.bind_eq_ok.1 h
      obtain ⟨zs, h2, h⟩ := Outcome.bind_eq_ok.1 h
      obtain rfl := Outcome.ok.inj h
      rw [List.mapM_cons] at h2
      obtain ⟨y, hy, h2⟩ := Outcome.bind_eq_ok.1 h2
      have hz : [y] = zs := Outcome.ok.inj h2
      subst hz
      obtain ⟨l1, l2⟩ := ih ys h1
      unfold triangleNormals at hy
      obtain ⟨p0, e0, hy⟩ := Outcome.bind_eq_ok.1 hy
      obtain ⟨p1, e1, hy⟩ := Outcome.bind_eq_ok.1 hy
      obtain ⟨p2, e2, hy⟩ := Outcome.bind_eq_ok.1 hy
      have hy' := Outcome.ok.inj hy
      rw [normal_swap] at hy'
      subst hy'
      refine ⟨by simp [l1]; omega, ?_⟩
      intro t ht
      rcases Nat.lt_succ_iff_lt_or_eq.1 ht with h' | rfl
      · obtain ⟨q0, q1, q2, a0, a1, a2, a3⟩ := l2 t h'
        refine ⟨q0, q1, q2, a0, a1, a2, fun j hj => ?_⟩
        rw [List.flatten_append, List.getElem?_append_left (by omega)]
        exact a3 j hj
      · refine ⟨p0, p1, p2, at_inv _ _ _ e0, at_inv _ _ _ e1, at_inv _ _ _ e2, fun j hj => ?_⟩
        rw [List.flatten_append, List.getElem?_append_right (by omega), l1]
        have : 3 * t + j - 3 * t = j := by omega
        rw [this]
        rcases (by omega : j = 0 ∨ j = 1 ∨ j = 2) with rfl | rfl | rfl <;> rfl
  obtain ⟨g1, g2⟩ := gen _ _ h2
  have hdiv : 3 * ((vs.length + 2) / 3) = vs.length := by
    by_contra hne
    obtain ⟨p0, p1, p2, a0, a1, a2, -⟩ := g2 ((vs.length + 2) / 3 - 1) (by omega)
    have := (List.getElem?_eq_some_iff.1 a2).1
    omega
  exact ⟨by omega, fun t ht => g2 t (by omega)⟩

end Vox.MeshMsg
