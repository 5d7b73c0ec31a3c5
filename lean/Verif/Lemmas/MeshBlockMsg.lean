/-
Mesh messages: the content of one block.
-/
import Verif.Lemmas.MeshMsg
import Verif.Lemmas.MeshSync
import Verif.Lemmas.Merge

namespace Vox.MeshMsg

open MC MeshInt Spec Ieee
open IndexF (u eta Size)

theorem check_ok {b : Bool} {x : Unit} (h : Outcome.check b = .ok x) : b = true := by
  cases b
  · cases h
  · rfl

theorem at_some {α : Type} {l : List α} {k : ℕ} {a : α} (h : MeshOps.at_ l k = .ok a) : l[k]? = some a := by
  unfold MeshOps.at_ at h
  split at h
  · next b hb => rw [hb, Outcome.ok.inj h]
  · cases h

theorem some_at {α : Type} {l : List α} {k : ℕ} {a : α} (h : l[k]? = some a) : MeshOps.at_ l k = .ok a := by
  unfold MeshOps.at_
  rw [h]

/-- One axis of a vertex that passed the checks. -/
theorem encodeVertex_ok {inv : Fl} {i : Idx} {v : Vec3 Fl} {p : Vec3 ℕ} (h : encodeVertex inv i v = .ok p) :
    ∃ a b c, normalized1 inv v.x i.x = .fin a ∧ normalized1 inv v.y i.y = .fin b ∧ normalized1 inv v.z i.z = .fin c ∧
      0 ≤ a ∧ a ≤ 1 ∧ 0 ≤ b ∧ b ≤ 1 ∧ 0 ≤ c ∧ c ≤ 1 ∧ p.x = ⌊rnd32 (65535 * a)⌋.toNat ∧ p.y = ⌊rnd32 (65535 * b)⌋.toNat ∧
      p.z = ⌊rnd32 (65535 * c)⌋.toNat := by
  unfold encodeVertex at h
  dsimp only at h
  obtain ⟨_, h1, h⟩ := Outcome.bind_eq_ok.1 h
  obtain ⟨_, h2, h⟩ := Outcome.bind_eq_ok.1 h
  obtain ⟨x, hx, h⟩ := Outcome.bind_eq_ok.1 h
  obtain ⟨y, hy, h⟩ := Outcome.bind_eq_ok.1 h
  obtain ⟨z, hz, h⟩ := Outcome.bind_eq_ok.1 h
  obtain rfl := Outcome.ok.inj h
  obtain ⟨a, b, c, hn, ha, hb, hc⟩ := checked (check_ok h1) normalized1_repr normalized1_repr normalized1_repr
  injection hn with ea eb ec
  have h2 := check_ok h2
  rw [ea, eb, ec] at h2
  rw [ea] at hx
  rw [eb] at hy
  rw [ec] at hz
  simp only [Fl.le, Bool.and_eq_true, decide_eq_true_eq] at h2
  obtain ⟨⟨ha0, hb0⟩, hc0⟩ := h2
  rw [(encode1_ok ha0 ha).1] at hx
  rw [(encode1_ok hb0 hb).1] at hy
  rw [(encode1_ok hc0 hc).1] at hz
  exact ⟨a, b, c, ea, eb, ec, ha0, ha, hb0, hb, hc0, hc, (Outcome.ok.inj hx).symm, (Outcome.ok.inj hy).symm, (Outcome.ok.inj hz).symm⟩

/-- The conversions after the checks are always defined. -/
theorem encodeVertex_defined (inv : Fl) (i : Idx) (v : Vec3 Fl) : encodeVertex inv i v ≠ .ub := by
  unfold encodeVertex
  dsimp only
  intro h
  cases h1 : Fl.le (float32.dot ⟨normalized1 inv v.x i.x, normalized1 inv v.y i.y, normalized1 inv v.z i.z⟩
    ⟨normalized1 inv v.x i.x, normalized1 inv v.y i.y, normalized1 inv v.z i.z⟩) (.fin 1) with
  | false => rw [h1] at h; cases h
  | true =>
    cases h2 : (Fl.le (.fin 0) (normalized1 inv v.x i.x) && Fl.le (.fin 0) (normalized1 inv v.y i.y) && Fl.le (.fin 0) (normalized1 inv v.z i.z)) with
    | false => rw [h1, h2] at h; cases h
    | true =>
      rw [h1, h2] at h
      obtain ⟨a, b, c, hn, ha, hb, hc⟩ := checked h1 normalized1_repr normalized1_repr normalized1_repr
      injection hn with ea eb ec
      rw [ea, eb, ec] at h2
      simp only [Fl.le, Bool.and_eq_true, decide_eq_true_eq] at h2
      obtain ⟨⟨ha0, hb0⟩, hc0⟩ := h2
      rw [ea, eb, ec, (encode1_ok ha0 ha).1, (encode1_ok hb0 hb).1, (encode1_ok hc0 hc).1] at h
      cases h

/-- A finite value behind a finite normalised one. -/
theorem normalized1_fin {inv x : Fl} {i : ℤ} {a : ℚ} (h : normalized1 inv x i = .fin a) : ∃ v, x = .fin v := by
  obtain ⟨c, d, -, hd, -⟩ := mul_fin h
  obtain ⟨y, f, hy, -, -⟩ := sub_fin hd
  obtain ⟨g1, g2, -, hg2, -⟩ := mul_fin hy
  exact ⟨g2, hg2⟩

/-- What the lists of a block hold after the first vertices. -/
theorem encode_prefix {inv : Fl} {mode : ColorMode} {i : Idx} {m : Mesh} : ∀ (n : ℕ) (b : MeshBlock),
    (List.range n).foldlM (vertexBlock inv mode i m) ⟨i, [], [], [], [], [], []⟩ = .ok b →
      b.index = i ∧ b.x.length = n ∧ b.y.length = n ∧ b.z.length = n ∧
      (mode ≠ .normals → b.r.length = n ∧ b.g.length = n ∧ b.b.length = n) ∧ (mode = .normals → b.r = []) ∧
      ∀ k < n, ∃ v p, m.vertices[k]? = some v ∧ encodeVertex inv i v = .ok p ∧ b.x[k]? = some p.x ∧ b.y[k]? = some p.y ∧ b.z[k]? = some p.z ∧
        (mode ≠ .normals → ∃ c cr cg cb, vertexColor m mode k = .ok c ∧ channelBytes c.x = .ok cr ∧ channelBytes c.y = .ok cg ∧
          channelBytes c.z = .ok cb ∧ b.r[k]? = some cr ∧ b.g[k]? = some cg ∧ b.b[k]? = some cb) := by
  intro n
  induction n with
  | zero =>
    intro b h
    obtain rfl := Outcome.ok.inj h
    simp
  | succ n ih =>
    intro b h
    rw [List.range_succ, List.foldlM_append] at h
    obtain ⟨b0, h0, h⟩ := Outcome.bind_eq_ok.1 h
    rw [List.foldlM_cons] at h
    obtain ⟨b1, h1, h⟩ := Outcome.bind_eq_ok.1 h
    obtain rfl := Outcome.ok.inj h
    obtain ⟨hi, lx, ly, lz, hc, hnn, hk⟩ := ih b0 h0
    unfold vertexBlock at h1
    obtain ⟨v, hv, h1⟩ := Outcome.bind_eq_ok.1 h1
    obtain ⟨p, hp, h1⟩ := Outcome.bind_eq_ok.1 h1
    have hv' := at_some hv
    dsimp only at h1
    split at h1
    · next hm =>
      obtain rfl := Outcome.ok.inj h1
      refine ⟨hi, by simp [lx], by simp [ly], by simp [lz], fun h => absurd hm h, hnn, fun k hkn => ?_⟩
      rcases Nat.lt_succ_iff_lt_or_eq.1 hkn with h | rfl
      · obtain ⟨v, p, a1, a2, a3, a4, a5, -⟩ := hk k h
        refine ⟨v, p, a1, a2, ?_, ?_, ?_, fun h => absurd hm h⟩
        · rw [List.getElem?_append_left (by omega)]; exact a3
        · rw [List.getElem?_append_left (by omega)]; exact a4
        · rw [List.getElem?_append_left (by omega)]; exact a5
      · refine ⟨v, p, hv', hp, ?_, ?_, ?_, fun h => absurd hm h⟩
        · rw [← lx]; simp
        · rw [← ly]; simp
        · rw [← lz]; simp
    · next hm =>
      obtain ⟨c, hc0, h1⟩ := Outcome.bind_eq_ok.1 h1
      obtain ⟨cr, hcr, h1⟩ := Outcome.bind_eq_ok.1 h1
      obtain ⟨cg, hcg, h1⟩ := Outcome.bind_eq_ok.1 h1
      obtain ⟨cb, hcb, h1⟩ := Outcome.bind_eq_ok.1 h1
      obtain rfl := Outcome.ok.inj h1
      obtain ⟨lr, lg, lb⟩ := hc hm
      refine ⟨hi, by simp [lx], by simp [ly], by simp [lz], fun _ => ⟨by simp [lr], by simp [lg], by simp [lb]⟩, fun h => absurd h hm, fun k hkn => ?_⟩
      rcases Nat.lt_succ_iff_lt_or_eq.1 hkn with h | rfl
      · obtain ⟨v, p, a1, a2, a3, a4, a5, a6⟩ := hk k h
        obtain ⟨c, cr, cg, cb, c1, c2, c3, c4, c5, c6, c7⟩ := a6 hm
        refine ⟨v, p, a1, a2, ?_, ?_, ?_, fun _ => ⟨c, cr, cg, cb, c1, c2, c3, c4, ?_, ?_, ?_⟩⟩
        · rw [List.getElem?_append_left (by omega)]; exact a3
        · rw [List.getElem?_append_left (by omega)]; exact a4
        · rw [List.getElem?_append_left (by omega)]; exact a5
        · rw [List.getElem?_append_left (by omega)]; exact c5
        · rw [List.getElem?_append_left (by omega)]; exact c6
        · rw [List.getElem?_append_left (by omega)]; exact c7
      · refine ⟨v, p, hv', hp, ?_, ?_, ?_, fun _ => ⟨c, cr, cg, cb, hc0, hcr, hcg, hcb, ?_, ?_, ?_⟩⟩
        · rw [← lx]; simp
        · rw [← ly]; simp
        · rw [← lz]; simp
        · rw [← lr]; simp
        · rw [← lg]; simp
        · rw [← lb]; simp

/-- A vertex as decoded by the display. -/
theorem vertex_near {s : ℚ} (hs : Size s) {i : Idx} (hi : |i.x| ≤ 2 ^ 31 ∧ |i.y| ≤ 2 ^ 31 ∧ |i.z| ≤ 2 ^ 31) {v : Vec3 Fl} {p : Vec3 ℕ}
    (h : encodeVertex (.fin (IndexF.inverse s)) i v = .ok p) :
    ∃ w : Vec3 ℚ, v = ⟨.fin w.x, .fin w.y, .fin w.z⟩ ∧ p.x ≤ 65535 ∧ p.y ≤ 65535 ∧ p.z ≤ 65535 ∧
      FloatNear (decode1 (.fin s) i.x p.x) w.x (s * (2 / 65535 + 8 * u * (|(i.x : ℚ)| + 3))) ∧
      FloatNear (decode1 (.fin s) i.y p.y) w.y (s * (2 / 65535 + 8 * u * (|(i.y : ℚ)| + 3))) ∧
      FloatNear (decode1 (.fin s) i.z p.z) w.z (s * (2 / 65535 + 8 * u * (|(i.z : ℚ)| + 3))) := by
  obtain ⟨a, b, c, ha, hb, hc, a0, a1, b0, b1, c0, c1, px, py, pz⟩ := encodeVertex_ok h
  have cap : ∀ q : ℚ, 0 ≤ q → q ≤ 1 → ⌊rnd32 (65535 * q)⌋.toNat ≤ 65535 := by
    intro q q0 q1
    have h := (encode1_ok q0 q1).2.2
    have : ⌊rnd32 (65535 * q)⌋ ≤ 65535 := by
      have := (Int.floor_le (rnd32 (65535 * q))).trans h
      exact_mod_cast this
    omega
  obtain ⟨x, hx⟩ := normalized1_fin ha
  obtain ⟨y, hy⟩ := normalized1_fin hb
  obtain ⟨z, hz⟩ := normalized1_fin hc
  rw [hx] at ha
  rw [hy] at hb
  rw [hz] at hc
  refine ⟨⟨x, y, z⟩, by cases v; simp_all, by rw [px]; exact cap a a0 a1, by rw [py]; exact cap b b0 b1, by rw [pz]; exact cap c c0 c1, ?_, ?_, ?_⟩
  · rw [px]; exact axis_error hs hi.1 ha a0 a1
  · rw [py]; exact axis_error hs hi.2.1 hb b0 b1
  · rw [pz]; exact axis_error hs hi.2.2 hc c0 c1

/-! ### Vertices in the cells of the block pass the checks -/

theorem cells_axis {s : ℚ} (hs : Size s) {N : ℕ} (hN : 4 ≤ N) {i : ℤ} (hi : (|(i : ℚ)| + 2) * N ≤ 2 ^ 18) {v : ℚ} (h : InCells s N i v) :
    ∃ a, normalized1 (.fin (IndexF.inverse s)) (.fin v) i = .fin a ∧ 0 ≤ a ∧ a ≤ 577 / 1000 := by
  have hs0 := hs.pos
  have hNq : (4 : ℚ) ≤ N := by exact_mod_cast hN
  have hN0 : (0 : ℚ) < N := by linarith
  obtain ⟨hlo, hhi⟩ := h
  set X := v / s with hX
  have eN : s / N = s * (1 / N) := by ring
  have lo : (i : ℚ) + 7 / 16 * (1 / N) ≤ X := by
    rw [hX, le_div_iff₀ hs0]
    rw [eN] at hlo
    linarith
  have hi2 : X ≤ (i : ℚ) + 1 + 9 / 16 * (1 / N) := by
    rw [hX, div_le_iff₀ hs0]
    rw [eN] at hhi
    linarith
  have hinv : (1 : ℚ) / N ≤ 1 / 4 := one_div_le_one_div_of_le (by norm_num) hNq
  have hinv0 : (0 : ℚ) < 1 / N := by positivity
  have hI : |(i : ℚ)| + 2 ≤ 2 ^ 18 * (1 / N) := by
    rw [mul_one_div, le_div_iff₀ hN0]
    exact hi
  have hIabs : |(i : ℚ)| ≤ 2 ^ 17 := by
    have : (2 : ℚ) ^ 18 * (1 / N) ≤ 2 ^ 18 * (1 / 4) := mul_le_mul_of_nonneg_left hinv (by positivity)
    have n : (2 : ℚ) ^ 18 * (1 / 4) ≤ 2 ^ 17 := by norm_num
    linarith
  have hiz : |i| ≤ 2 ^ 24 := by
    have : |(i : ℚ)| ≤ 2 ^ 24 := hIabs.trans (by norm_num)
    exact_mod_cast this
  have hri : rnd32 (i : ℚ) = i := IndexF.rnd32_int hiz
  have hXabs : |X| ≤ |(i : ℚ)| + 2 := by
    have h1 := neg_abs_le (i : ℚ)
    have h2 := le_abs_self (i : ℚ)
    rw [abs_le]
    constructor <;> linarith
  have hg : |IndexF.inverse s * v - X| ≤ 3 / 2 * u * |X| := by
    have e : IndexF.inverse s * v - X = (IndexF.inverse s - 1 / s) * v := by rw [hX]; ring
    rw [e, abs_mul]
    have := mul_le_mul_of_nonneg_right (IndexF.inverse_err hs) (abs_nonneg v)
    have e2 : |X| = 1 / s * |v| := by rw [hX, abs_div, abs_of_pos hs0]; ring
    rw [e2]
    linarith
  have he1 := IndexF.rnd32_err (IndexF.inverse s * v)
  set g := IndexF.inverse s * v with hgd
  set y := rnd32 g with hyd
  have hgabs : |g| ≤ |X| + 3 / 2 * u * |X| := by
    have := abs_sub_abs_le_abs_sub g X
    linarith
  have hsm := eta_small
  have n60 : (1 : ℚ) / 16777216 / 10000000 / 2 ^ 60 ≤ 1 / 16777216 / 10000000 / 1000000000000000000 := by norm_num
  have heta : eta ≤ 1 / 16777216 / 10000000 / 1000000000000000000 := hsm.trans n60
  rw [u_eq] at hg he1 hgabs
  have p18 : (2 : ℚ) ^ 18 = 262144 := by norm_num
  rw [p18] at hI
  have hN524 : (1 : ℚ) / 131072 ≤ 1 / N := by
    have := abs_nonneg (i : ℚ)
    linarith
  have b1 := abs_le.1 hg
  have b2 := abs_le.1 he1
  have ylo : (i : ℚ) ≤ y := by linarith
  have yhi : y - (i : ℚ) ≤ 1 + 61 / 100 * (1 / N) := by linarith
  have d0 : 0 ≤ rnd32 (y - (i : ℚ)) := rne_nonneg (by linarith)
  have he2 := IndexF.rnd32_err (y - (i : ℚ))
  rw [u_eq, abs_of_nonneg (show 0 ≤ y - (i : ℚ) by linarith)] at he2
  have b3 := abs_le.1 he2
  have dhi : rnd32 (y - (i : ℚ)) ≤ 1153 / 1000 := by linarith
  set d := rnd32 (y - (i : ℚ)) with hd
  have a0 : 0 ≤ rnd32 (1 / 2 * d) := rne_nonneg (by linarith)
  have he3 := IndexF.rnd32_err (1 / 2 * d)
  rw [u_eq, abs_of_nonneg (show 0 ≤ 1 / 2 * d by linarith)] at he3
  have b4 := abs_le.1 he3
  have ahi : rnd32 (1 / 2 * d) ≤ 577 / 1000 := by linarith
  refine ⟨rnd32 (1 / 2 * d), ?_, a0, ahi⟩
  have big : (2 : ℚ) ^ 20 < 2 ^ 128 := by norm_num
  have p20 : (2 : ℚ) ^ 20 = 1048576 := by norm_num
  have p17 : (2 : ℚ) ^ 17 = 131072 := by norm_num
  rw [p20] at big
  rw [p17] at hIabs
  have fy : float32.rnd g = .fin y := rnd_of_lt (by
    have := abs_le.1 hIabs
    refine lt_of_le_of_lt (abs_le.2 ⟨?_, ?_⟩) big <;> rw [← hyd] <;> linarith)
  have fi : float32.rnd (i : ℚ) = .fin (i : ℚ) := by
    have := rnd_of_lt (q := (i : ℚ)) (by rw [hri]; linarith)
    rwa [hri] at this
  have fd : float32.rnd (y - (i : ℚ)) = .fin d := rnd_of_lt (by
    rw [← hd, abs_of_nonneg d0]; linarith)
  have fa : float32.rnd (1 / 2 * d) = .fin (rnd32 (1 / 2 * d)) := rnd_of_lt (by rw [abs_of_nonneg a0]; linarith)
  unfold normalized1
  have m1 : float32.mul (.fin (IndexF.inverse s)) (.fin v) = .fin y := fy
  have m2 : float32.sub (.fin y) (.fin (i : ℚ)) = .fin d := by
    have : float32.sub (.fin y) (.fin (i : ℚ)) = float32.rnd (y + -(i : ℚ)) := rfl
    rw [this, ← sub_eq_add_neg, fd]
  rw [m1, fi, m2]
  exact fa

theorem third {a : ℚ} (h0 : 0 ≤ a) (h1 : a ≤ 577 / 1000) : ∃ q, float32.mul (.fin a) (.fin a) = .fin q ∧ 0 ≤ q ∧ q ≤ 333 / 1000 := by
  have hsq : a * a ≤ 33295 / 100000 := by nlinarith
  have hs0 : 0 ≤ a * a := mul_self_nonneg a
  have he := IndexF.rnd32_err (a * a)
  have n : eta ≤ 1 / 1000000 := by unfold eta; norm_num
  rw [u_eq, abs_of_nonneg hs0] at he
  have b := abs_le.1 he
  have q0 : 0 ≤ rnd32 (a * a) := rne_nonneg hs0
  have q1 : rnd32 (a * a) ≤ 333 / 1000 := by linarith
  exact ⟨rnd32 (a * a), rnd_of_lt (by rw [abs_of_nonneg q0]; exact lt_of_le_of_lt q1 (by norm_num)), q0, q1⟩

theorem sum_small {a b A B : ℚ} (a0 : 0 ≤ a) (b0 : 0 ≤ b) (ha : a ≤ A) (hb : b ≤ B) (hAB : A + B ≤ 2) :
    ∃ q, float32.add (.fin a) (.fin b) = .fin q ∧ 0 ≤ q ∧ q ≤ A + B + 1 / 1000000 := by
  have hs0 : 0 ≤ a + b := by linarith
  have he := IndexF.rnd32_err (a + b)
  have n : eta ≤ 1 / 16777216 := by unfold eta; norm_num
  rw [u_eq, abs_of_nonneg hs0] at he
  have bb := abs_le.1 he
  have q0 : 0 ≤ rnd32 (a + b) := rne_nonneg hs0
  have q1 : rnd32 (a + b) ≤ A + B + 1 / 1000000 := by linarith
  have big : (3 : ℚ) < 2 ^ 128 := by norm_num
  exact ⟨rnd32 (a + b), rnd_of_lt (by rw [abs_of_nonneg q0]; linarith), q0, q1⟩

/-- Vertices in the cells of the block pass the checks. -/
theorem cells_ok {s : ℚ} (hs : Size s) {N : ℕ} (hN : 4 ≤ N) {i : Idx}
    (hx : (|(i.x : ℚ)| + 2) * N ≤ 2 ^ 18) (hy : (|(i.y : ℚ)| + 2) * N ≤ 2 ^ 18) (hz : (|(i.z : ℚ)| + 2) * N ≤ 2 ^ 18) {v : Vec3 ℚ}
    (vx : InCells s N i.x v.x) (vy : InCells s N i.y v.y) (vz : InCells s N i.z v.z) :
    ∃ p, encodeVertex (.fin (IndexF.inverse s)) i ⟨.fin v.x, .fin v.y, .fin v.z⟩ = .ok p := by
  obtain ⟨a, ha, a0, a1⟩ := cells_axis hs hN hx vx
  obtain ⟨b, hb, b0, b1⟩ := cells_axis hs hN hy vy
  obtain ⟨c, hc, c0, c1⟩ := cells_axis hs hN hz vz
  obtain ⟨qa, ea, qa0, qa1⟩ := third a0 a1
  obtain ⟨qb, eb, qb0, qb1⟩ := third b0 b1
  obtain ⟨qc, ec, qc0, qc1⟩ := third c0 c1
  obtain ⟨t, et, t0, t1⟩ := sum_small qa0 qb0 qa1 qb1 (by norm_num)
  obtain ⟨r, er, r0, r1⟩ := sum_small t0 qc0 t1 qc1 (by norm_num)
  unfold encodeVertex
  dsimp only
  rw [ha, hb, hc]
  unfold Arith.dot
  dsimp only
  rw [ea, eb, ec, et, er]
  have e1 : Fl.le (.fin r) (.fin 1) = true := by
    simp only [Fl.le, decide_eq_true_eq]
    norm_num at *
    linarith
  have e2 : (Fl.le (.fin 0) (.fin a) && Fl.le (.fin 0) (.fin b) && Fl.le (.fin 0) (.fin c)) = true := by
    simp [Fl.le, a0, b0, c0]
  rw [e1, e2, (encode1_ok a0 (by linarith)).1, (encode1_ok b0 (by linarith)).1, (encode1_ok c0 (by linarith)).1]
  exact ⟨_, rfl⟩

end Vox.MeshMsg
