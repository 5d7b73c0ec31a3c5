/-
Property C127: where the points of a cloud are placed.
-/
import Verif.Lemmas.Placement

namespace Vox.Placement

open Layer Spec Interp Merge Tf

/-! ### Examples -/

/-- The sensor looks to the left of the robot; it stands one metre before it. -/
def exBC : Rigid := ⟨⟨0, -1, 0⟩, ⟨1, 0, 0⟩, ⟨0, 0, 1⟩, ⟨1, 0, 0⟩⟩

/-- The dynamic frame seen from the robot, given the other way round. -/
def exDB : Rigid := ⟨⟨0, 0, 1⟩, ⟨1, 0, 0⟩, ⟨0, 1, 0⟩, ⟨0, 0, 2⟩⟩

/-- Parameters of a robot with transforms from a topic. -/
def exParams : Params := { useTf := false, bd := ⟨some exDB, true⟩, bc := ⟨some exBC, false⟩ }

/-- Two transforms and a question in between. -/
def exEvents : List PoseEvent := [.transform ⟨1000000000, Rigid.id⟩, .ask "camera" "world" 1000000500, .transform ⟨2000000000, ⟨⟨1, 0, 0⟩, ⟨0, 1, 0⟩, ⟨0, 0, 1⟩, ⟨5, 0, 0⟩⟩⟩]

/-- The first pose, whatever the weight. -/
def exBlend : Fl → Rigid → Rigid → Rigid := fun _ a _ => a

theorem ex_static : StaticOk exParams := by
  refine ⟨fun T h => ?_, fun T h => ?_⟩
  · obtain rfl := Option.some.inj h
    unfold Orthonormal
    decide +kernel
  · obtain rfl := Option.some.inj h
    unfold Orthonormal
    decide +kernel

/-! ### Transforms from a topic -/

/-- **C127 (transforms from a topic).** After any messages and questions, a pose that is given out places the points of the sensor by the two static transforms, each possibly
given the other way round, and a transform received before: one whose stamp differs from the time asked for by less than the tolerance, or a blend of two, one too old and one too
new. Frames play no part. -/
theorem C127_topic {A : Arith} {blend : Fl → Rigid → Rigid → Rigid} {tree : String → String → ℤ → TfAnswer} {p : Params} (hp : p.useTf = false) (hs : StaticOk p)
    {es : List PoseEvent} {fromFrame toFrame : String} {time : ℤ} {T : Rigid} (h : answerAfter A blend tree p es fromFrame toFrame time = some T) :
    (∃ m ∈ arrivals es, |m.stamp - time| < p.tolerance ∧ Places p m.pose T) ∨
    ∃ a ∈ arrivals es, ∃ b ∈ arrivals es, a.stamp ≤ time ∧ time < b.stamp ∧
      Places p (blend (ratio A (time - a.stamp) (b.stamp - time)) a.pose b.pose) T := by
  have hst : start p = ⟨p.tolerance, p.bd.value, p.bc.value, []⟩ := by unfold start; rw [hp]; rfl
  obtain ⟨k1, k2, k3, k4⟩ := after_keeps A blend tree (p := p) es (start p)
  have h' : ((after A blend tree p (start p) es).lookup A (ops blend) time).1 = some T := by
    have : (lookup A blend tree p (after A blend tree p (start p) es) fromFrame toFrame time).1 = some T := h
    unfold lookup at this
    rw [hp] at this
    exact this
  replace k1 := k1.trans (show (start p).tolerance = p.tolerance by rw [hst])
  replace k2 := k2.trans (show (start p).staticBD = p.bd.value by rw [hst])
  replace k3 := k3.trans (show (start p).staticBC = p.bc.value by rw [hst])
  have hq : ∀ m ∈ (after A blend tree p (start p) es).queue, m ∈ arrivals es := by
    intro m hm
    rcases k4 m hm with h | h
    · rw [hst] at h
      cases h
    · exact h
  rcases Props.C80_found A (ops blend) _ time h' with ⟨pre, e, suf, e1, e2, -, rfl⟩ | ⟨pre, a, b, suf, e1, e2, e3, -, rfl⟩
  · refine Or.inl ⟨e, hq e (by rw [e1]; simp), by rw [← k1]; exact e2, chained_places hs k2 k3 _⟩
  · refine Or.inr ⟨a, hq a (by rw [e1]; simp), b, hq b (by rw [e1]; simp), (e2 a (by simp)).1, e3, chained_places hs k2 k3 _⟩

/-- A point half a metre before the sensor. -/
example : StaticOk exParams ∧ exParams.useTf = false ∧
    (answerAfter (Arith.exact .fin) exBlend (fun _ _ _ => .unavailable) exParams exEvents "camera" "world" 2000000900).map (fun T => T.apply ⟨1 / 2, 0, 0⟩) = some ⟨5, 1, 5 / 2⟩ ∧
    (answerAfter (Arith.exact .fin) exBlend (fun _ _ _ => .unavailable) exParams exEvents "camera" "world" 1500000000).isSome = true ∧
    answerAfter (Arith.exact .fin) exBlend (fun _ _ _ => .unavailable) exParams exEvents "camera" "world" 2500000000 = none := by
  refine ⟨ex_static, rfl, ?_⟩
  decide +kernel

/-- **C127 (shape).** A placement by a rigid pose keeps all distances between points. -/
theorem C127_rigid {p : Params} (hs : StaticOk p) {pose T : Rigid} (hr : Orthonormal pose) (h : Places p pose T) (x y : Pt) :
    squareDist (T.apply x) (T.apply y) = squareDist x y := by
  obtain ⟨b, q, h1, h2, h3⟩ := h x
  obtain ⟨c, r, k1, k2, k3⟩ := h y
  rw [h3, k3, RigidT.apply_squareDist hr, ← takes_squareDist hs.1 h2 k2, takes_squareDist hs.2 h1 k1]

/-- **C127 (one placement).** The pose and the parameters determine where each point goes. -/
theorem C127_unique {p : Params} (hs : StaticOk p) {pose T T' : Rigid} (h : Places p pose T) (h' : Places p pose T') (x : Pt) : T.apply x = T'.apply x := by
  have zero : ∀ {u v : Pt}, squareDist u v = 0 → u = v := by
    intro u v huv
    unfold squareDist at huv
    have a := sq_nonneg (u.x - v.x)
    have b := sq_nonneg (u.y - v.y)
    have c := sq_nonneg (u.z - v.z)
    ext
    · exact sub_eq_zero.1 (pow_eq_zero_iff (two_ne_zero) |>.1 (by linarith))
    · exact sub_eq_zero.1 (pow_eq_zero_iff (two_ne_zero) |>.1 (by linarith))
    · exact sub_eq_zero.1 (pow_eq_zero_iff (two_ne_zero) |>.1 (by linarith))
  have self : ∀ u : Pt, squareDist u u = 0 := fun u => by unfold squareDist; ring
  obtain ⟨b, q, h1, h2, h3⟩ := h x
  obtain ⟨c, r, k1, k2, k3⟩ := h' x
  have e1 : b = c := zero (by rw [takes_squareDist hs.2 h1 k1, self])
  subst e1
  have e2 : q = r := zero (by rw [← takes_squareDist hs.1 h2 k2, self])
  rw [h3, k3, e2]

example : StaticOk exParams ∧ Orthonormal exDB ∧ Places exParams exDB (chained (ops exBlend) ⟨0, exParams.bd.value, exParams.bc.value, []⟩ exDB) :=
  ⟨ex_static, by unfold Orthonormal; decide +kernel, chained_places ex_static rfl rfl _⟩

/-! ### Transforms from TF -/

/-- **C127 (transforms from TF).** With TF the pose is the one TF has for the time of the cloud, from the frame of the cloud, or from the sensor frame of the parameters if there is
one, to the target frame; there is none if TF has none or throws. Messages, earlier questions and static transforms play no part. -/
theorem C127_tf {A : Arith} {blend : Fl → Rigid → Rigid → Rigid} {tree : String → String → ℤ → TfAnswer} {p : Params} (hp : p.useTf = true) (es : List PoseEvent)
    (fromFrame toFrame : String) (time : ℤ) :
    (∀ T, answerAfter A blend tree p es fromFrame toFrame time = some T ↔
      (p.sensorFrame = "" ∧ tree toFrame fromFrame time = .found T) ∨ (p.sensorFrame ≠ "" ∧ tree toFrame p.sensorFrame time = .found T)) ∧
    ∀ bd bc es', answerAfter A blend tree { p with bd := bd, bc := bc } es' fromFrame toFrame time = answerAfter A blend tree p es fromFrame toFrame time := by
  have key : ∀ (q : Params) (l : List PoseEvent), q.useTf = true → answerAfter A blend tree q l fromFrame toFrame time = lookupTf tree q fromFrame toFrame time := by
    intro q l hq
    unfold answerAfter lookup
    rw [if_pos hq]
  refine ⟨fun T => ?_, fun bd bc es' => ?_⟩
  · rw [key p es hp]
    unfold lookupTf
    by_cases hf : p.sensorFrame = ""
    · simp only [hf, if_true, true_and, ne_eq, not_true, false_and, or_false]
      cases tree toFrame fromFrame time <;> simp
    · simp only [hf, if_false, false_and, ne_eq, not_false_iff, true_and, false_or]
      cases tree toFrame p.sensorFrame time <;> simp
  · rw [key p es hp, key { p with bd := bd, bc := bc } es' hp]
    rfl

example : answerAfter (Arith.exact .fin) exBlend (fun t f s => if t = "world" ∧ f = "lidar" ∧ s = 7 then .found exBC else .throws) { sensorFrame := "lidar" } exEvents "camera" "world" 7 =
    some exBC := by decide +kernel

end Vox.Placement
