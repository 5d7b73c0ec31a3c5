/-
Rays parallel to a coordinate plane: what the ray caster does with a component that is zero.
-/
import Verif.Lemmas.RayFloat

namespace Vox.Ray

open Fl Spec Ieee IndexF

open RoundErr (u_eq eta_eq rnd32_nonneg rnd32_mono rnd_fin)

/-- A first component that compares with nothing is chosen for ever. -/
theorem emit_stuck (A : Arith) (k : ℕ) : ∀ b : Body, b.sign.x = 0 → b.tstep.x = .nan → b.t.x = .ninf ∨ b.t.x = .nan →
    emit A k b = List.replicate k b.curr := by
  induction k with
  | zero => intro b _ _ _; rfl
  | succ k ih =>
    intro b h0 hs ht
    have hm : minCoeffIdx b.t = 0 := by
      unfold minCoeffIdx
      have h1 : Fl.lt b.t.y b.t.x = false := by rcases ht with h | h <;> rw [h] <;> cases b.t.y <;> rfl
      have h2 : Fl.lt b.t.z b.t.x = false := by rcases ht with h | h <;> rw [h] <;> cases b.t.z <;> rfl
      rw [h1, h2]
      rfl
    have hcur : (advance A b).curr = b.curr := by
      show modify3 b.curr (minCoeffIdx b.t) (· + at3 b.sign (minCoeffIdx b.t)) = _
      rw [hm]
      show (⟨b.curr.x + b.sign.x, b.curr.y, b.curr.z⟩ : Idx) = _
      rw [h0, add_zero]
    have ht' : (advance A b).t.x = .nan := by
      show (modify3 b.t (minCoeffIdx b.t) (A.add · (at3 b.tstep (minCoeffIdx b.t)))).x = _
      rw [hm]
      show A.add b.t.x b.tstep.x = _
      rw [hs]
      rcases ht with h | h <;> rw [h] <;> rfl
    show b.curr :: emit A k (advance A b) = _
    rw [ih (advance A b) h0 hs (Or.inr ht'), hcur]
    rfl

/-- A step changes the distance from a voxel by at most one. -/
theorem advance_dist (A : Arith) (b : Body) (a : Idx) (hs : ∀ i, -1 ≤ at3 b.sign i ∧ at3 b.sign i ≤ 1) :
    l1dist a (advance A b).curr ≤ l1dist a b.curr + 1 := by
  have h := hs (minCoeffIdx b.t)
  show l1dist a (modify3 b.curr (minCoeffIdx b.t) (· + at3 b.sign (minCoeffIdx b.t))) ≤ _
  generalize minCoeffIdx b.t = i at *
  generalize at3 b.sign i = d at *
  unfold l1dist
  match i with
  | 0 => simp only [modify3]; omega
  | 1 => simp only [modify3]; omega
  | 2 => simp only [modify3]; omega

theorem emit_dist (A : Arith) (a : Idx) (k : ℕ) : ∀ (b : Body) (m : ℕ), (∀ i, -1 ≤ at3 b.sign i ∧ at3 b.sign i ≤ 1) → l1dist a b.curr ≤ m →
    ∀ c ∈ emit A k b, l1dist a c < m + k := by
  induction k with
  | zero => intro b m _ _ c hc; simp [emit] at hc
  | succ k ih =>
    intro b m hs hm c hc
    rcases List.mem_cons.1 (show c ∈ b.curr :: emit A k (advance A b) from hc) with rfl | hc'
    · omega
    · have := ih (advance A b) (m + 1) hs ((advance_dist A b a hs).trans (by omega)) c hc'
      omega

/-- If one entry is -∞, the entry chosen is -∞ or NaN. -/
theorem minCoeffIdx_ninf {t : Vec3 Fl} {i : Fin 3} (h : at3 t i = .ninf) : at3 t (minCoeffIdx t) = .ninf ∨ at3 t (minCoeffIdx t) = .nan := by
  obtain ⟨x, y, z⟩ := t
  unfold minCoeffIdx
  match i with
  | 0 =>
    simp only [at3] at h
    subst h
    cases y <;> cases z <;> simp [Fl.lt, at3]
  | 1 =>
    simp only [at3] at h
    subst h
    cases x <;> cases z <;> simp [Fl.lt, at3]
  | 2 =>
    simp only [at3] at h
    subst h
    cases x <;> cases y <;> simp [Fl.lt, at3]

theorem rnd32_zero' : rnd32 0 = 0 := by decide +kernel

/-- The setup of an axis along which nothing changes. -/
theorem zero_axis {x X : ℚ} (hx : |x| ≤ X) (hX : X ≤ 2 ^ 20) :
    (rayIdx x ≤ x → tFirst float32 (.fin x) (float32.sub (.fin x) (.fin x)) (rayIdx x) = .ninf ∨
      tFirst float32 (.fin x) (float32.sub (.fin x) (.fin x)) (rayIdx x) = .nan) ∧
    (rayIdx x + 1 / 2 ^ 100 ≤ x → tFirst float32 (.fin x) (float32.sub (.fin x) (.fin x)) (rayIdx x) = .ninf) ∧
    tStep float32 (float32.sub (.fin x) (.fin x)) = .nan ∧ signumFl (float32.sub (.fin x) (.fin x)) = 0 := by
  obtain ⟨-, g1, g2, g3⟩ := grid_axis hx hX
  have htol : tolG X ≤ 1 / 10 := by
    unfold tolG
    rw [u_eq]
    norm_num at *
    linarith
  have hsub : float32.sub (.fin x) (.fin x) = .fin 0 := by
    rw [fin_sub (by norm_num), sub_self, rnd32_zero']
  have hi : float32.rnd (rayIdx x : ℚ) = .fin (rayIdx x) := by
    rw [rnd_fin (by
      obtain ⟨a, b⟩ := abs_le.1 g3
      have a' : (-(2 ^ 20 + 2) : ℚ) ≤ rayIdx x := by exact_mod_cast a
      have b' : (rayIdx x : ℚ) ≤ 2 ^ 20 + 2 := by exact_mod_cast b
      rw [abs_le]
      constructor <;> norm_num at * <;> linarith), rnd32_int (g3.trans (by norm_num))]
  have hd : |x - rayIdx x| ≤ 2 := abs_le.2 ⟨by linarith, by linarith⟩
  have hd2 : |0 - rnd32 (x - rayIdx x)| ≤ 2 ^ 127 := by
    have := rnd32_err (x - rayIdx x)
    rw [u_eq, eta_eq] at this
    rw [zero_sub, abs_neg]
    have h1 := abs_sub_abs_le_abs_sub (rnd32 (x - rayIdx x)) (x - rayIdx x)
    norm_num at *
    linarith
  have key : tFirst float32 (.fin x) (float32.sub (.fin x) (.fin x)) (rayIdx x) = Fl.infOfSign (rnd32 (0 - rnd32 (x - rayIdx x))) := by
    unfold tFirst
    rw [hsub, hi, fin_sub (hd.trans (by norm_num))]
    have hs0 : ((max 0 (signumFl (.fin 0)) : ℤ) : ℚ) = 0 := by simp [signumFl, signum]
    simp only [hs0]
    rw [fin_sub hd2]
    rw [if_neg (by simp [Fl.lt, Fl.abs])]
    simp [Arith.div]
  refine ⟨?_, ?_, ?_, ?_⟩
  · intro h
    rw [key]
    have h1 : 0 ≤ rnd32 (x - rayIdx x) := rnd32_nonneg (by linarith)
    have h2 : rnd32 (0 - rnd32 (x - rayIdx x)) ≤ 0 := by
      have := rnd32_mono (show 0 - rnd32 (x - rayIdx x) ≤ 0 by linarith)
      rwa [rnd32_zero'] at this
    unfold Fl.infOfSign
    rw [if_neg (by linarith)]
    split_ifs
    · exact Or.inl rfl
    · exact Or.inr rfl
  · intro h
    rw [key]
    have e1 : rnd32 (1 / 2 ^ 100) = 1 / 2 ^ 100 := by decide +kernel
    have e2 : rnd32 (-(1 / 2 ^ 100)) = -(1 / 2 ^ 100) := by decide +kernel
    have h1 : 1 / 2 ^ 100 ≤ rnd32 (x - rayIdx x) := by
      rw [← e1]
      exact rnd32_mono (by linarith)
    have h2 : rnd32 (0 - rnd32 (x - rayIdx x)) ≤ -(1 / 2 ^ 100) := by
      have := rnd32_mono (show 0 - rnd32 (x - rayIdx x) ≤ -(1 / 2 ^ 100) by linarith)
      rwa [e2] at this
    have h3 : rnd32 (0 - rnd32 (x - rayIdx x)) < 0 := lt_of_le_of_lt h2 (by norm_num)
    unfold Fl.infOfSign
    rw [if_neg (by linarith), if_pos h3]
  · rw [hsub]
    decide +kernel
  · rw [hsub]
    rfl

/-- The body of the setup for points with finite coordinates. -/
def bodyOf (s e : Pt) : Body :=
  ⟨⟨tFirst float32 (.fin s.x) (float32.sub (.fin e.x) (.fin s.x)) (rayIdx s.x), tFirst float32 (.fin s.y) (float32.sub (.fin e.y) (.fin s.y)) (rayIdx s.y),
    tFirst float32 (.fin s.z) (float32.sub (.fin e.z) (.fin s.z)) (rayIdx s.z)⟩, s.map rayIdx,
    (float32.vsub (e.map .fin) (s.map .fin)).map signumFl, (float32.vsub (e.map .fin) (s.map .fin)).map (tStep float32), 0⟩

theorem cast_bodyOf {s e : Pt} {X : ℚ} (hs : CoordsWithin X s) (he : CoordsWithin X e) (hX : X ≤ 2 ^ 20) {a z : Idx}
    (ha : gridFl float32 (s.map .fin) = .ok a) (hz : gridFl float32 (e.map .fin) = .ok z) {n : ℕ} (hlen : l1dist a z + 1 < 2 ^ 32)
    (hn : l1dist a z + 2 ≤ n) : a = s.map rayIdx ∧ z = e.map rayIdx ∧
      castRay float32 (s.map .fin) (e.map .fin) n = .ok (some (emit float32 (l1dist a z + 1) (bodyOf s e))) := by
  rw [gridFl_float hs hX] at ha
  rw [gridFl_float he hX] at hz
  have ha := (Outcome.ok.inj ha).symm
  have hz := (Outcome.ok.inj hz).symm
  subst ha hz
  refine ⟨rfl, rfl, ?_⟩
  have hset : setup float32 (s.map .fin) (e.map .fin) = .ok { len := l1dist (s.map rayIdx) (e.map rayIdx), body := some (bodyOf s e) } := by
    unfold setup
    rw [if_neg (by simp [anyNan, isNan]), gridFl_float hs hX, gridFl_float he hX]
    have hm : l1 (s.map rayIdx) (e.map rayIdx) % 2 ^ 32 = l1dist (s.map rayIdx) (e.map rayIdx) :=
      Nat.mod_eq_of_lt (show l1dist (s.map rayIdx) (e.map rayIdx) < _ by omega)
    simp only [Outcome.bind_ok, hm]
    rfl
  unfold castRay
  rw [hset]
  exact castLoop_emit float32 _ hlen _ n _ (by show 0 + _ = _; omega) (by omega)

theorem bodyOf_t (s e : Pt) (i : Fin 3) : at3 (bodyOf s e).t i = tFirst float32 (.fin (at3 s i)) (float32.sub (.fin (at3 e i)) (.fin (at3 s i))) (rayIdx (at3 s i)) := by
  match i with
  | 0 => rfl
  | 1 => rfl
  | 2 => rfl

theorem bodyOf_sign (s e : Pt) (i : Fin 3) : at3 (bodyOf s e).sign i = signumFl (float32.sub (.fin (at3 e i)) (.fin (at3 s i))) := by
  match i with
  | 0 => rfl
  | 1 => rfl
  | 2 => rfl

/-- Components that are zero or not small: -∞ and NaN mark the zero ones. -/
theorem special_zero {s e : Pt} {X : ℚ} (hs : CoordsWithin X s) (he : CoordsWithin X e) (hX : X ≤ 2 ^ 20) {j : Fin 3}
    (hc : at3 e j = at3 s j ∨ 1 / 2 ^ 60 ≤ |at3 e j - at3 s j|) (ht : at3 (bodyOf s e).t j = .ninf ∨ at3 (bodyOf s e).t j = .nan) :
    at3 (bodyOf s e).sign j = 0 := by
  rw [bodyOf_t] at ht
  rw [bodyOf_sign]
  rcases hc with h | h
  · rw [h]
    exact (zero_axis (coords_at hs j) hX).2.2.2
  · obtain ⟨⟨q, hq, -⟩, -⟩ := first_axis (coords_at hs j) (coords_at he j) hX h
    rw [hq] at ht
    rcases ht with h | h <;> cases h

theorem bodyOf_sign_range (s e : Pt) (i : Fin 3) : -1 ≤ at3 (bodyOf s e).sign i ∧ at3 (bodyOf s e).sign i ≤ 1 := by
  rw [bodyOf_sign]
  generalize float32.sub (.fin (at3 e i)) (.fin (at3 s i)) = x
  cases x with
  | fin q => simp only [signumFl, signum]; split <;> [skip; split] <;> omega
  | _ => simp [signumFl]

/-- A zero component costs one step at the start. -/
theorem wasted_step {s e : Pt} {X : ℚ} (hs : CoordsWithin X s) (he : CoordsWithin X e) (hX : X ≤ 2 ^ 20)
    (hc : ∀ j, at3 e j = at3 s j ∨ 1 / 2 ^ 60 ≤ |at3 e j - at3 s j|) {i : Fin 3} (hi : at3 e i = at3 s i)
    (hpos : (rayIdx (at3 s i) : ℚ) + 1 / 2 ^ 100 ≤ at3 s i) : (advance float32 (bodyOf s e)).curr = s.map rayIdx := by
  have ht : at3 (bodyOf s e).t i = .ninf := by
    rw [bodyOf_t, hi]
    exact (zero_axis (coords_at hs i) hX).2.1 hpos
  have h0 := special_zero hs he hX (hc _) (minCoeffIdx_ninf ht)
  show modify3 (bodyOf s e).curr (minCoeffIdx (bodyOf s e).t) (· + at3 (bodyOf s e).sign (minCoeffIdx (bodyOf s e).t)) = _
  rw [h0]
  generalize minCoeffIdx (bodyOf s e).t = m
  match m with
  | 0 => simp [modify3, bodyOf]; rfl
  | 1 => simp [modify3, bodyOf]; rfl
  | 2 => simp [modify3, bodyOf]; rfl

end Vox.Ray
