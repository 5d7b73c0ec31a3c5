/-
Facts on the conversion of point clouds.
-/
import Verif.Spec.CloudMsg
import Verif.Lemmas.MeshColorMsg

namespace Vox.CloudMsg

open Ieee

theorem isPointFinite_iff (p : PclPoint) : isPointFinite p = true ↔ Usable p := by
  unfold isPointFinite Usable
  rcases p with ⟨⟨x, y, z⟩, c, i⟩
  cases x <;> cases y <;> cases z <;> simp [isFinite]

theorem fieldStep_foldl (fs : List String) (f : Bool × Bool) :
    (fs.foldl fieldStep f).1 = (f.1 || decide ("rgb" ∈ fs)) ∧ (fs.foldl fieldStep f).2 = (f.2 || decide ("intensity" ∈ fs)) := by
  induction fs generalizing f with
  | nil => simp
  | cons a fs ih =>
    rw [List.foldl_cons]
    obtain ⟨h1, h2⟩ := ih (fieldStep f a)
    rw [h1, h2]
    unfold fieldStep
    by_cases ha : a = "rgb"
    · subst ha
      simp
    · by_cases hb : a = "intensity"
      · subst hb
        simp
      · rw [if_neg ha, if_neg hb]
        simp [List.mem_cons, Ne.symm ha, Ne.symm hb]

theorem kind_eq (fs : List String) : kind fs = if "rgb" ∈ fs then .rgb else if "intensity" ∈ fs then .intensity else .plain := by
  unfold kind
  obtain ⟨h1, h2⟩ := fieldStep_foldl fs (false, false)
  simp only [h1, h2, Bool.false_or, decide_eq_true_eq]

theorem colorFor_iff (look : Fl → Outcome Color) (fs : List String) (p : PclPoint) (c : Color) :
    ColorFor look fs p c ↔ convertColor look (kind fs) p = .ok c := by
  rw [kind_eq]
  unfold ColorFor
  by_cases h1 : "rgb" ∈ fs
  · simp [h1, convertColor, eq_comm]
  · by_cases h2 : "intensity" ∈ fs
    · simp [h1, h2, convertColor]
    · simp [h1, h2, convertColor]

theorem convert_ok {look : Fl → Outcome Color} {k : Kind} (ps : List PclPoint) (acc : List (Vec3 Fl) × List Color) (r : List (Vec3 Fl) × List Color) :
    convertPointcloud look k ps acc = .ok r ↔
      ∃ cs, r = (acc.1 ++ (usable ps).map (·.pos), acc.2 ++ cs) ∧ List.Forall₂ (fun p c => convertColor look k p = .ok c) (usable ps) cs := by
  induction ps generalizing acc with
  | nil =>
    constructor
    · intro h
      have := Outcome.ok.inj h
      exact ⟨[], by simp [usable, ← this], List.Forall₂.nil⟩
    · rintro ⟨cs, e, h⟩
      cases h
      rw [e]
      simp [convertPointcloud, usable]
  | cons p ps ih =>
    unfold convertPointcloud at ih ⊢
    rw [List.foldlM_cons]
    by_cases hp : Usable p
    · have hb := (isPointFinite_iff p).2 hp
      have hu : usable (p :: ps) = p :: usable ps := by simp [usable, hp]
      rw [hu]
      have e1 : convertPoint look k acc p = (convertColor look k p >>= fun c => pure (acc.1 ++ [p.pos], acc.2 ++ [c])) := by
        unfold convertPoint
        rw [hb]
        rfl
      rw [e1]
      cases hc : convertColor look k p with
      | ok c =>
        rw [Outcome.bind_ok, Outcome.pure_eq, Outcome.bind_ok, ih]
        constructor
        · rintro ⟨cs, e, h⟩
          exact ⟨c :: cs, by simp [e], List.Forall₂.cons hc h⟩
        · rintro ⟨cs, e, h⟩
          cases h with
          | cons h1 h2 =>
            rename_i d ds
            rw [hc] at h1
            have := Outcome.ok.inj h1
            subst this
            exact ⟨ds, by simp [e], h2⟩
      | fatal =>
        constructor
        · intro h
          exact absurd h (by intro h; cases h)
        · rintro ⟨cs, e, h⟩
          cases h with
          | cons h1 h2 => rw [hc] at h1; cases h1
      | ub =>
        constructor
        · intro h
          exact absurd h (by intro h; cases h)
        · rintro ⟨cs, e, h⟩
          cases h with
          | cons h1 h2 => rw [hc] at h1; cases h1
    · have hb : isPointFinite p = false := by
        cases hh : isPointFinite p with
        | false => rfl
        | true => exact absurd ((isPointFinite_iff p).1 hh) hp
      have hu : usable (p :: ps) = usable ps := by simp [usable, hp]
      have e1 : convertPoint look k acc p = .ok acc := by
        unfold convertPoint
        rw [hb]
        rfl
      rw [hu, e1, Outcome.bind_ok, ih]

theorem clamp_fin (lo hi : ℚ) (v : Fl) : ∃ q : ℚ, Fl.stdMin (.fin hi) (Fl.stdMax (.fin lo) v) = .fin q := by
  have key : ∀ w : Fl, w = .pinf ∨ (∃ q : ℚ, w = .fin q) → ∃ q : ℚ, Fl.stdMin (.fin hi) w = .fin q := by
    rintro w (rfl | ⟨q, rfl⟩)
    · exact ⟨hi, rfl⟩
    · by_cases h : q < hi
      · exact ⟨q, by simp [Fl.stdMin, Fl.lt, h]⟩
      · exact ⟨hi, by simp [Fl.stdMin, Fl.lt, h]⟩
  refine key _ ?_
  cases v with
  | nan => exact .inr ⟨lo, rfl⟩
  | ninf => exact .inr ⟨lo, rfl⟩
  | pinf => exact .inl rfl
  | fin q =>
    right
    by_cases h : lo < q
    · exact ⟨q, by simp [Fl.stdMax, Fl.lt, h]⟩
    · exact ⟨lo, by simp [Fl.stdMax, Fl.lt, h]⟩

theorem rnd32_nat {k : ℕ} (h : k ≤ 255) : rnd32 k = k := by
  have := IndexF.rnd32_int (n := (k : ℤ)) (by
    rw [abs_of_nonneg (by positivity)]
    have : (k : ℤ) ≤ 255 := by exact_mod_cast h
    have n : (255 : ℤ) ≤ 2 ^ 24 := by norm_num
    omega)
  simpa using this

theorem rnd64_monotone : Monotone rnd64 := fun _ _ h => rne_mono (by norm_num) h

theorem rnd32_monotone : Monotone rnd32 := fun _ _ h => rne_mono (by norm_num) h

end Vox.CloudMsg
