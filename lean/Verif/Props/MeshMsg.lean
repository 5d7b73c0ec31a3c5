/-
C74: mesh messages and what a display makes of them.
-/
import Verif.Lemmas.NormalColor

namespace Vox.Props

open MC MeshInt Spec Ieee MeshMsg
open IndexF (u Size)

/-! Data for the examples. -/

private def tri : Mesh :=
  ⟨[⟨.fin (1 / 4), .fin (1 / 4), .fin (1 / 2)⟩, ⟨.fin 1, .fin (1 / 4), .fin (1 / 2)⟩, ⟨.fin (1 / 4), .fin 1, .fin (5 / 8)⟩], [0, 1, 2],
    [⟨.fin 0, .fin 0, .fin 1⟩, ⟨.fin 0, .fin 0, .fin 1⟩, ⟨.fin 0, .fin 0, .fin 1⟩],
    [⟨10, 20, 30, 255⟩, ⟨40, 50, 60, 255⟩, ⟨70, 80, 90, 255⟩], true⟩

example : Size 1 := ⟨by decide +kernel, by norm_num, by norm_num⟩

/-- **C74**, acceptance: in blocks of at least four cells per side and less than 2^18 cells from the origin, vertices between the cell
centres (where marching cubes interpolates) pass the range checks, and the message is complete in every colour mode. -/
theorem C74_accepted {s : ℚ} (hs : Size s) {N : ℕ} (hN : 4 ≤ N) {i : Idx}
    (hi : (|(i.x : ℚ)| + 2) * N ≤ 2 ^ 18 ∧ (|(i.y : ℚ)| + 2) * N ≤ 2 ^ 18 ∧ (|(i.z : ℚ)| + 2) * N ≤ 2 ^ 18) {mode : ColorMode} {m : Mesh}
    (hm : Sendable mode m) (hv : ∀ v ∈ m.vertices, ∃ w : Vec3 ℚ, v = ⟨.fin w.x, .fin w.y, .fin w.z⟩ ∧ InCells s N i.x w.x ∧ InCells s N i.y w.y ∧
      InCells s N i.z w.z) : ∃ b, encodeBlock (.fin (IndexF.inverse s)) mode i m = .ok b := by
  refine (encode_defined hm).2 fun v hvm => ?_
  obtain ⟨w, rfl, hx, hy, hz⟩ := hv v hvm
  exact cells_ok hs hN hi.1 hi.2.1 hi.2.2 hx hy hz

example : InCells 1 4 0 (1 / 4) ∧ InCells 1 4 0 1 ∧ InCells 1 4 0 (5 / 8) ∧ InCells 1 4 0 (9 / 8) ∧ ((|((0 : ℤ) : ℚ)| + 2) * (4 : ℕ) ≤ 2 ^ 18) := by
  refine ⟨⟨?_, ?_⟩, ⟨?_, ?_⟩, ⟨?_, ?_⟩, ⟨?_, ?_⟩, ?_⟩ <;> norm_num

example : Sendable .lambertColor tri := by
  refine ⟨fun _ => by decide, fun _ => ⟨by decide, fun n hn => ?_⟩⟩
  have : n = ⟨.fin 0, .fin 0, .fin 1⟩ := by simpa [tri] using hn
  subst this
  exact ⟨⟨0, rfl, by norm_num⟩, ⟨0, rfl, by norm_num⟩, ⟨1, rfl, by norm_num⟩⟩

/-- **C74**, violation: with two cells per side a vertex of the last cell, in range, is refused: the squared length of the normalised
vertex is compared with one although each coordinate may be up to one; the process aborts. -/
theorem C74_accepted_violated : InCells 1 2 0 (5 / 4) ∧
    encodeVertex (.fin (IndexF.inverse 1)) ⟨0, 0, 0⟩ ⟨.fin (5 / 4), .fin (5 / 4), .fin (5 / 4)⟩ = .fatal := by
  refine ⟨⟨by norm_num, by norm_num⟩, by decide +kernel⟩

/-- **C74**, definedness: for a mesh with the colours and normals that the mode reads, a block is either refused by a range check or
sent; no conversion is undefined, whatever the vertices are. -/
theorem C74_defined {inv : Fl} {mode : ColorMode} {i : Idx} {m : Mesh} (hm : Sendable mode m) : encodeBlock inv mode i m ≠ .ub :=
  (encode_defined hm).1

example : encodeVertex (.fin 1) ⟨0, 0, 0⟩ ⟨.nan, .fin 0, .fin 0⟩ = .fatal ∧ encodeVertex (.fin 1) ⟨0, 0, 0⟩ ⟨.pinf, .fin 0, .fin 0⟩ = .fatal ∧
    encodeVertex (.fin 1) ⟨5, 0, 0⟩ ⟨.fin 0, .fin 0, .fin 0⟩ = .fatal := by decide +kernel

/-- **C74**, violation: a mesh without colours (integrator option `use_color` off) is read past the end of its colours. -/
theorem C74_colors_violated : encodeBlock (.fin 1) .color ⟨0, 0, 0⟩ { tri with colors := [] } = .ub ∧
    encodeBlock (.fin 1) .gray ⟨0, 0, 0⟩ { tri with colors := [] } ≠ .ub := by
  constructor <;> decide +kernel

/-- **C74**, content: if a block is sent with colours, the display decodes the same number of vertices, in the same order; positions are off
by at most two 65535ths of a block edge plus rounding, colours are the bytes sent, opaque. -/
theorem C74_content {s : ℚ} (hs : Size s) {mode : ColorMode} (hmode : mode ≠ .normals) {i : Idx}
    (hi : |i.x| ≤ 2 ^ 31 ∧ |i.y| ≤ 2 ^ 31 ∧ |i.z| ≤ 2 ^ 31) {m : Mesh} (h3 : 3 ∣ m.vertices.length) {b : MeshBlock}
    (h : encodeBlock (.fin (IndexF.inverse s)) mode i m = .ok b) :
    ∃ md, decodeBlock (.fin s) b = .ok md ∧ md.vertices.length = m.vertices.length ∧ md.colors.length = m.vertices.length ∧
      md.normals.length = m.vertices.length ∧ md.indices = List.range m.vertices.length ∧
      ∀ k < m.vertices.length, ∃ (w : Vec3 ℚ) (p : Vec3 Fl) (c : ColorMsg) (cd : Color),
        m.vertices[k]? = some ⟨.fin w.x, .fin w.y, .fin w.z⟩ ∧ md.vertices[k]? = some p ∧
        FloatNear p.x w.x (s * (2 / 65535 + 8 * u * (|(i.x : ℚ)| + 3))) ∧ FloatNear p.y w.y (s * (2 / 65535 + 8 * u * (|(i.y : ℚ)| + 3))) ∧
        FloatNear p.z w.z (s * (2 / 65535 + 8 * u * (|(i.z : ℚ)| + 3))) ∧
        vertexColor m mode k = .ok c ∧ md.colors[k]? = some cd ∧ channelBytes c.x = .ok cd.r ∧ channelBytes c.y = .ok cd.g ∧
        channelBytes c.z = .ok cd.b ∧ cd.a = 255 :=
  decode_block hs hmode hi h3 h

example : (3 ∣ tri.vertices.length) ∧ (match encodeBlock (.fin (IndexF.inverse 1)) .color ⟨0, 0, 0⟩ tri with
    | .ok b => decide (b.x = [8191, 32767, 8191] ∧ b.z = [16383, 16383, 20479] ∧ b.r = [10, 40, 70])
    | _ => false) = true := by
  constructor
  · decide
  · decide +kernel

/-- **C74**, colours: in colour mode the display shows exactly the colours of the mesh, opaque. -/
theorem C74_colors {s : ℚ} (hs : Size s) {i : Idx} (hi : |i.x| ≤ 2 ^ 31 ∧ |i.y| ≤ 2 ^ 31 ∧ |i.z| ≤ 2 ^ 31) {m : Mesh}
    (h3 : 3 ∣ m.vertices.length) {b : MeshBlock} (h : encodeBlock (.fin (IndexF.inverse s)) .color i m = .ok b) :
    ∃ md, decodeBlock (.fin s) b = .ok md ∧ ∀ k < m.vertices.length, ∃ c, m.colors[k]? = some c ∧ md.colors[k]? = some ⟨c.r, c.g, c.b, 255⟩ := by
  obtain ⟨md, hd, -, -, -, -, hk⟩ := decode_block hs (by simp) hi h3 h
  refine ⟨md, hd, fun k hkl => ?_⟩
  obtain ⟨-, -, c, cd, -, -, -, -, -, hc, hcd, hr, hg, hb, ha⟩ := hk k hkl
  unfold vertexColor at hc
  dsimp only at hc
  obtain ⟨c0, h0, hc⟩ := Outcome.bind_eq_ok.1 hc
  have hc := Outcome.ok.inj hc
  subst hc
  refine ⟨c0, at_some h0, ?_⟩
  rw [hcd]
  have er := Outcome.ok.inj ((channel_bytes c0.r).symm.trans hr)
  have eg := Outcome.ok.inj ((channel_bytes c0.g).symm.trans hg)
  have eb := Outcome.ok.inj ((channel_bytes c0.b).symm.trans hb)
  rw [er, eg, eb, ← ha]

/-- **C74**, colour messages: `colorMsgToVoxblox` is the inverse of `colorVoxbloxToMsg` on every byte, despite the truncation. -/
theorem C74_color_roundtrip (c : BitVec 8) : channelFromMsg (channelToMsg c) = .ok c ∧ channelBytes (channelToMsg c) = .ok c :=
  ⟨channel_msg c, channel_bytes c⟩

example : channelToMsg 51 = .fin (13421773 / 67108864) ∧ channelFromMsg (.fin (13421773 / 67108864)) = .ok 51 := by
  decide +kernel

/-- **C74**, normals: the display shows every triangle of a block with the normal that the mesh integrator gives to a triangle with these
vertices, bit for bit, at all three of them; so surfaces are lit from the side they were measured from. -/
theorem C74_normals {edge : Fl} {b : MeshBlock} {md : Mesh} (h : decodeBlock edge b = .ok md) :
    md.normals.length = md.vertices.length ∧ ∀ t, 3 * t < md.vertices.length → ∃ p0 p1 p2,
      md.vertices[3 * t]? = some p0 ∧ md.vertices[3 * t + 1]? = some p1 ∧ md.vertices[3 * t + 2]? = some p2 ∧
      ∀ j < 3, md.normals[3 * t + j]? = some (triNormal float32 p0 p1 p2) :=
  decode_normals h

example : ∃ md, decodeBlock (.fin 1) ⟨⟨0, 0, 0⟩, [0, 65535, 0], [0, 0, 65535], [0, 0, 0], [1, 2, 3], [1, 2, 3], [1, 2, 3]⟩ = .ok md ∧
    md.normals[2]? = some ⟨.fin 0, .fin 0, .fin 1⟩ := ⟨_, rfl, by decide +kernel⟩

/-- **C74**, normal colouring: a block sent in this mode has no colours. The display decodes the same number of vertices, in the same order, as close as with colours;
it shows each in the colour of the normal it shows, (n + 1) / 2 of the range of a channel up to the truncation, opaque. This is defined for every mesh,
also for triangles that the rounding of the message makes flat. -/
theorem C74_normal_colors {s : ℚ} (hs : rnd32 s = s) (h1 : 1 / 8 ≤ s) (h2 : s ≤ 2 ^ 20) {i : Idx} (hi : |i.x| ≤ 50 ∧ |i.y| ≤ 50 ∧ |i.z| ≤ 50) {m : Mesh}
    (h3 : 3 ∣ m.vertices.length) (h0 : m.vertices ≠ []) {b : MeshBlock} (h : encodeBlock (.fin (IndexF.inverse s)) .normals i m = .ok b) :
    ∃ md, decodeBlock (.fin s) b = .ok md ∧ md.vertices.length = m.vertices.length ∧ md.colors.length = m.vertices.length ∧
      ∀ k < m.vertices.length, ∃ (w : Vec3 ℚ) (p : Vec3 Fl) (n : Vec3 ℚ) (c : Color),
        m.vertices[k]? = some ⟨.fin w.x, .fin w.y, .fin w.z⟩ ∧ md.vertices[k]? = some p ∧
        FloatNear p.x w.x (s * (2 / 65535 + 8 * u * (|(i.x : ℚ)| + 3))) ∧ FloatNear p.y w.y (s * (2 / 65535 + 8 * u * (|(i.y : ℚ)| + 3))) ∧
        FloatNear p.z w.z (s * (2 / 65535 + 8 * u * (|(i.z : ℚ)| + 3))) ∧
        md.normals[k]? = some (n.map .fin) ∧ md.colors[k]? = some c ∧ NormalColor n c := by
  have size : Size s := ⟨hs, by
    have : (1 / 2 ^ 90 : ℚ) ≤ 1 / 8 := by norm_num
    linarith, by
    have : (2 ^ 20 : ℚ) ≤ 2 ^ 90 := by norm_num
    linarith⟩
  have hi' : |i.x| ≤ 2 ^ 31 ∧ |i.y| ≤ 2 ^ 31 ∧ |i.z| ≤ 2 ^ 31 := by
    refine ⟨hi.1.trans (by norm_num), hi.2.1.trans (by norm_num), hi.2.2.trans (by norm_num)⟩
  obtain ⟨hidx, lx, ly, lz, -, hn, hk⟩ := encode_prefix _ _ h
  have cap : ∀ k < m.vertices.length, ∃ (w : Vec3 ℚ) (p : Vec3 ℕ), m.vertices[k]? = some ⟨.fin w.x, .fin w.y, .fin w.z⟩ ∧ b.x[k]? = some p.x ∧ b.y[k]? = some p.y ∧
      b.z[k]? = some p.z ∧ p.x ≤ 65535 ∧ p.y ≤ 65535 ∧ p.z ≤ 65535 ∧
      FloatNear (decode1 (.fin s) i.x p.x) w.x (s * (2 / 65535 + 8 * u * (|(i.x : ℚ)| + 3))) ∧
      FloatNear (decode1 (.fin s) i.y p.y) w.y (s * (2 / 65535 + 8 * u * (|(i.y : ℚ)| + 3))) ∧
      FloatNear (decode1 (.fin s) i.z p.z) w.z (s * (2 / 65535 + 8 * u * (|(i.z : ℚ)| + 3))) := by
    intro k hkl
    obtain ⟨v, p, a1, a2, a3, a4, a5, -⟩ := hk k hkl
    obtain ⟨w, hw, q1, q2, q3, wx, wy, wz⟩ := vertex_near size hi' a2
    exact ⟨w, p, by rw [a1, hw], a3, a4, a5, q1, q2, q3, wx, wy, wz⟩
  have all : ∀ (l : List ℕ), l.length = m.vertices.length → (∀ k < m.vertices.length, ∃ q, l[k]? = some q ∧ q ≤ 65535) → ∀ q ∈ l, q ≤ 65535 := by
    intro l hl hq q hql
    obtain ⟨k, hkl, rfl⟩ := List.getElem_of_mem hql
    obtain ⟨q', e, hq'⟩ := hq k (by omega)
    rw [List.getElem?_eq_getElem hkl] at e
    rw [Option.some.inj e]
    exact hq'
  obtain ⟨md, e, l1, l2, hv, hc⟩ := decode_plain h1 h2 (b := b) (by rw [hidx]; exact hi) (by omega) (by omega) (by rw [lx]; exact h3)
    (all _ lx fun k hk => by obtain ⟨w, p, -, a, -, -, q, -⟩ := cap k hk; exact ⟨_, a, q⟩)
    (all _ ly fun k hk => by obtain ⟨w, p, -, -, a, -, -, q, -⟩ := cap k hk; exact ⟨_, a, q⟩)
    (all _ lz fun k hk => by obtain ⟨w, p, -, -, -, a, -, -, q, -⟩ := cap k hk; exact ⟨_, a, q⟩)
    (by
      rw [hn rfl, lx]
      intro hc
      exact h0 (List.length_eq_zero_iff.1 hc))
  refine ⟨md, e, l1.trans lx, l2.trans lx, fun k hkl => ?_⟩
  obtain ⟨w, p, a1, a2, a3, a4, -, -, -, wx, wy, wz⟩ := cap k hkl
  obtain ⟨x, y, z, c1, c2, c3, c4⟩ := hv k (by omega)
  obtain ⟨n, c, d1, d2, d3⟩ := hc k (by omega)
  rw [a2] at c1
  rw [a3] at c2
  rw [a4] at c3
  obtain rfl := Option.some.inj c1
  obtain rfl := Option.some.inj c2
  obtain rfl := Option.some.inj c3
  rw [hidx] at c4
  exact ⟨w, _, n, c, a1, c4, wx, wy, wz, d1, d2, d3⟩

/-- A triangle and its colour. -/
example : (3 ∣ tri.vertices.length) ∧ tri.vertices ≠ [] ∧ (do
    let b ← encodeBlock (.fin (IndexF.inverse 1)) .normals ⟨0, 0, 0⟩ tri
    let md ← decodeBlock (.fin 1) b
    pure (b.r, md.colors)) = Outcome.ok ([], [⟨127, 106, 253, 255⟩, ⟨127, 106, 253, 255⟩, ⟨127, 106, 253, 255⟩]) := by
  refine ⟨by decide, by decide, by decide +kernel⟩

/-- **C74**, violation: for blocks of 15 pm the squared length of a normal is lost to underflow, the normal gets too long, and its colour is undefined. -/
theorem C74_tiny_violated : decodeBlock (.fin (1 / 2 ^ 36)) ⟨⟨0, 0, 0⟩, [0, 6000, 0], [0, 0, 32768], [0, 0, 0], [], [], []⟩ = .ub := by
  decide +kernel

/-- **C74**, violation of the message definition ("rounded to nearest BLOCK_EDGE_LENGTH/65535"): positions are truncated to multiples of twice
that length, so that a vertex can be off by nearly four times what is promised. -/
theorem C74_precision_violated : ∃ v : ℚ, ∃ k : ℕ, encode1 (normalized1 (.fin (IndexF.inverse 1)) (.fin v) 0) = .ok k ∧
    (match decode1 (.fin 1) 0 k with | .fin D => decide (19 / 10 / 65535 < v - D) | _ => false) = true := by
  exact ⟨511 / 2 ^ 24, 0, by decide +kernel, by decide +kernel⟩

/-- **C74**, synchrony: after any history of stores, clearings, allocations and messages that starts with nothing and ends with a message, the
display shows at every block exactly the picture of the mesh of the layer, and nothing elsewhere. -/
theorem C74_sync {edge inv : Fl} {mode : ColorMode} {es : List MeshEvent} {st : MeshMap × Display}
    (h : (es ++ [MeshEvent.send]).foldlM (meshEvent edge inv mode) ([], []) = .ok st) :
    ∀ i, picture edge inv mode st.1 i = .ok (visible st.2 i) := by
  rw [List.foldlM_append] at h
  obtain ⟨s1, h1, h⟩ := Outcome.bind_eq_ok.1 h
  rw [List.foldlM_cons] at h
  obtain ⟨s2, h2, h⟩ := Outcome.bind_eq_ok.1 h
  obtain rfl := Outcome.ok.inj h
  have hk := events_sync es ([], []) s1 List.nodup_nil (start_sync edge inv mode) h1
  obtain ⟨r, hr, h2⟩ := Outcome.bind_eq_ok.1 h2
  obtain ⟨d, hd, h2⟩ := Outcome.bind_eq_ok.1 h2
  obtain rfl := Outcome.ok.inj h2
  exact (send_sync hk.1 hk.2 (msg := r.1) (ml' := r.2) hr hd).2.2.1

/-- The picture of the layer does not change by sending it, and nothing is pending afterwards. -/
theorem C74_send_keeps {edge inv : Fl} {mode : ColorMode} {ml ml' : MeshMap} {d d' : Display} {msg : Msg} (hk : MeshKeys ml)
    (hu : UpToDate edge inv mode ml d) (hg : generateMsg edge inv mode ml = .ok (msg, ml')) (hr : receive d msg = .ok d') :
    (∀ i, picture edge inv mode ml' i = picture edge inv mode ml i) ∧ ∀ i m, ml'.lookup i = some m → m.updated = false := by
  obtain ⟨-, p1, p2, p3⟩ := send_sync hk hu hg hr
  exact ⟨fun i => (p2 i).trans (p1 i).symm, p3⟩

private def story : List MeshEvent :=
  [.store ⟨0, 0, 0⟩ tri, .allocate ⟨1, 0, 0⟩, .send, .clear ⟨0, 0, 0⟩, .store ⟨0, 0, 1⟩ Mesh.empty]

example : (match (story.take 2 ++ [MeshEvent.send]).foldlM (meshEvent (.fin 1) (.fin 1) .color) ([], []) with
    | .ok st => decide ((visible st.2 ⟨0, 0, 0⟩).vertices.length = 3 ∧ st.1.length = 2)
    | _ => false) = true ∧
    (match (story ++ [MeshEvent.send]).foldlM (meshEvent (.fin 1) (.fin 1) .color) ([], []) with
    | .ok st => decide ((visible st.2 ⟨0, 0, 0⟩).vertices = [] ∧ st.1.length = 1 ∧ st.2.length = 1)
    | _ => false) = true := by
  constructor <;> decide +kernel

private def ended (x : Outcome (MeshMap × Display)) : MeshMap × Display :=
  match x with
  | .ok st => st
  | _ => ([], [])

private def sent : MeshMap × Display :=
  ended ([MeshEvent.store ⟨0, 0, 0⟩ tri, .send].foldlM (meshEvent (.fin 1) (.fin 1) .color) ([], []))

/-- **C74**, violation: meshes removed from the layer (`MeshLayer::clear`, called by `TsdfServer::clear`) stay on display: no later message
mentions them. -/
theorem C74_removed_violated : ∃ st st' : MeshMap × Display,
    [MeshEvent.store ⟨0, 0, 0⟩ tri, .send].foldlM (meshEvent (.fin 1) (.fin 1) .color) ([], []) = .ok st ∧
    meshEvent (.fin 1) (.fin 1) .color ([], st.2) .send = .ok st' ∧
    picture (.fin 1) (.fin 1) .color st'.1 ⟨0, 0, 0⟩ = .ok Mesh.empty ∧ (visible st'.2 ⟨0, 0, 0⟩).vertices.length = 3 :=
  ⟨sent, ended (meshEvent (.fin 1) (.fin 1) .color ([], sent.2) .send), by decide +kernel, by decide +kernel, by decide +kernel, by decide +kernel⟩

/-- **C74**, violation: a display that joins after a message does not get the meshes sent before. -/
theorem C74_late_violated : ∃ st st' : MeshMap × Display,
    [MeshEvent.store ⟨0, 0, 0⟩ tri, .send].foldlM (meshEvent (.fin 1) (.fin 1) .color) ([], []) = .ok st ∧
    meshEvent (.fin 1) (.fin 1) .color (st.1, []) .send = .ok st' ∧
    (∃ m, picture (.fin 1) (.fin 1) .color st'.1 ⟨0, 0, 0⟩ = .ok m ∧ m.vertices.length = 3) ∧ visible st'.2 ⟨0, 0, 0⟩ = Mesh.empty :=
  ⟨sent, ended (meshEvent (.fin 1) (.fin 1) .color (sent.1, []) .send), by decide +kernel, by decide +kernel,
    ⟨visible sent.2 ⟨0, 0, 0⟩, by decide +kernel, by decide +kernel⟩, by decide +kernel⟩

/-- **C74**, violation: the display trusts the lengths in a message: shorter coordinate lists or a vertex count that is no multiple of three
make it read past the end. -/
theorem C74_malformed_violated : decodeBlock (.fin 1) ⟨⟨0, 0, 0⟩, [1, 2, 3], [1, 2, 3], [1, 2], [], [], []⟩ = .ub ∧
    decodeBlock (.fin 1) ⟨⟨0, 0, 0⟩, [1], [1], [1], [], [], []⟩ = .ub ∧
    decodeBlock (.fin 1) ⟨⟨0, 0, 0⟩, [1, 2, 3], [1, 5, 3], [1, 2, 3], [7, 7, 7], [7], [7, 7, 7]⟩ = .ub := by
  refine ⟨?_, ?_, ?_⟩ <;> decide +kernel

end Vox.Props
