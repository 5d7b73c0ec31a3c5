/-
Property C87: the batches and threads of the alignment, over all schedules of the threads. (Exact arithmetic.)
-/
import Verif.Lemmas.IcpRun

namespace Vox.Icp

open Geo Layer Grid Spec

/-! ### Example data: a level sensor, two threads, batches of three points -/

/-- The configuration. -/
def runConfig : Config := ⟨false, 3, 4 / 5, 1 / 2, 100, 100, 2⟩

/-- Six points, all close to the wall of `Props/IcpMatch.lean`. -/
def runPoints : List Pt := [exPoint, ⟨9 / 20, 1 / 5, 4 / 5⟩, ⟨3 / 10, 0, 9 / 10⟩, ⟨2 / 5, 0, 3 / 5⟩, ⟨1 / 5, 1 / 10, 4 / 5⟩, ⟨2 / 5, 1 / 5, 7 / 10⟩]

/-- A schedule of the two threads. -/
def runSchedule : List ℕ := [0, 1, 1, 0, 0, 1, 1, 0, 0, 1, 1, 0]

/-- The library: the decomposition is orthogonal, the rotation vectors are Rodrigues' parameters. -/
def runLib : Lib ℚ := { cayleyLib with svd2 := fun _ => (1, 1), svd3 := fun _ => (1, 1) }

/-- The run. -/
def runResult : Outcome State := run runLib runConfig wall runPoints runSchedule (start runConfig exSensor)

theorem runLib_log : IsRotationLog runLib.log runLib.exp := cayley_rotationLog

theorem exSensor_yaw : IsYaw exSensor := ⟨by constructor <;> norm_num [exSensor], rfl⟩

/-- What the run looks like when it ends: finished, with two batches taken and two updates. -/
theorem run_example : ∃ s, runResult = .ok s ∧ s.finished ∧ s.shared.taken = [0, 3] ∧ s.shared.updates = 2 ∧
    s.shared.pose ≠ exSensor ∧ s.threads.length = 2 := by
  have h : (match runResult with
    | .ok s => decide (s.shared.taken = [0, 3] ∧ s.shared.updates = 2 ∧ s.shared.pose ≠ exSensor ∧ s.threads.length = 2) &&
        s.threads.all fun p => match p with | Phase.done => true | _ => false
    | _ => false) = true := by decide +kernel
  split at h
  · rename_i s e
    rw [Bool.and_eq_true, decide_eq_true_iff, List.all_eq_true] at h
    obtain ⟨⟨h1, h2, h3, h4⟩, h5⟩ := h
    refine ⟨s, e, ?_, h1, h2, h3, h4⟩
    intro ph hm
    have := h5 ph hm
    cases ph <;> simp at this ⊢
  · cases h

/-! ## C87 batches and threads -/

/-- **C87.** However the threads are scheduled, when all of them have ended (at least one thread) the batches taken start at the multiples of the
batch size up to the given ratio of the points, each once; together they are the first points of the cloud, each once: at least the given ratio
of them, and less than a batch more (or all of them). -/
theorem C87_batches {L : Lib ℚ} {c : Config} {l : VLayer (TsdfVoxel ℚ)} {points : List Pt} {initial : Pose ℚ} {ks : List ℕ} {s : State}
    (ht : 0 < c.threads) (h : run L c l points ks (start c initial) = .ok s) (hf : s.finished) :
    ∃ k : ℕ, s.shared.taken = (List.range k).map (· * c.batch) ∧
      (∀ j < k, ((j * c.batch : ℕ) : ℚ) ≤ c.keepRatio * points.length) ∧ c.keepRatio * points.length < ((k * c.batch : ℕ) : ℚ) ∧
      (s.shared.taken.map fun st => (points.drop st).take c.batch).flatten = points.take (k * c.batch) := by
  obtain ⟨k, hk⟩ := taken_run h
  have ln : s.threads.length = c.threads := by rw [threads_length h]; simp [start]
  have hd : Phase.done ∈ s.threads := by
    obtain ⟨ph, hm⟩ := List.exists_mem_of_length_pos (by omega : 0 < s.threads.length)
    rw [hf ph hm] at hm
    exact hm
  refine ⟨k, hk.taken, ?_, (beyond_iff _ _ _).1 (hk.done hd), by rw [hk.taken]; exact batches_flatten _ _ _⟩
  intro j hj
  have := hk.within j hj
  by_contra hlt
  push Not at hlt
  rw [(beyond_iff c points (j * c.batch)).2 hlt] at this
  cases this

example : ∃ s, run runLib runConfig wall runPoints runSchedule (start runConfig exSensor) = .ok s ∧ s.finished ∧ 0 < runConfig.threads := by
  obtain ⟨s, h, hf, -⟩ := run_example
  exact ⟨s, h, hf, by decide⟩

/-- **C87.** The threads end: `K` batches are enough to pass the ratio, then after `2 K + 2 threads` rounds in which every thread acts (in any
order, any number of times) all of them have ended. -/
theorem C87_terminates {L : Lib ℚ} {c : Config} {l : VLayer (TsdfVoxel ℚ)} {points : List Pt} {initial : Pose ℚ} {K : ℕ}
    (hK : c.keepRatio * points.length < ((K * c.batch : ℕ) : ℚ)) {rs : List (List ℕ)} (hr : ∀ r ∈ rs, ∀ k < c.threads, k ∈ r)
    (hn : 2 * K + 2 * c.threads ≤ rs.length) {s : State} (h : run L c l points rs.flatten (start c initial) = .ok s) : s.finished := by
  have t0 : ∃ k, Taken c points (start c initial) k := taken_run (ks := []) (L := L) (l := l) rfl
  have ln : (start c initial).threads.length = c.threads := by simp [start]
  have m0 : measure K (start c initial) = 2 * K + 2 * c.threads := by
    simp only [measure, start, List.length_nil, Nat.sub_zero, List.map_replicate, left, List.sum_replicate, smul_eq_mul]
    omega
  rcases rounds ((beyond_iff _ _ _).2 hK) rs t0 (by rw [ln]; exact hr) h with hf | hm
  · exact hf
  · exact measure_zero (K := K) (by omega)

example : runConfig.keepRatio * runPoints.length < ((2 * runConfig.batch : ℕ) : ℚ) := by norm_num [runConfig, runPoints]

/-- **C87.** With a batch size of zero no thread ever ends (and `runICP` never returns). -/
theorem C87_empty_batches_hang {L : Lib ℚ} {c : Config} {l : VLayer (TsdfVoxel ℚ)} {points : List Pt} {initial : Pose ℚ} {ks : List ℕ}
    {s : State} (hb : c.batch = 0) (hk : 0 ≤ c.keepRatio) (ht : 0 < c.threads) (h : run L c l points ks (start c initial) = .ok s) :
    ¬ s.finished := by
  intro hf
  obtain ⟨k, -, -, h3, -⟩ := C87_batches ht h hf
  rw [hb, Nat.mul_zero, Nat.cast_zero] at h3
  have : 0 ≤ c.keepRatio * points.length := mul_nonneg hk (by positivity)
  linarith

example : (match run runLib { runConfig with batch := 0 } wall runPoints runSchedule (start runConfig exSensor) with
    | .ok s => s.threads.length == 2 && s.threads.all fun p => match p with | Phase.done => false | _ => true
    | _ => false) = true := by decide +kernel

/-- **C87.** A batch counts only with at least three matches, and at least the given ratio of its size (rounded down). -/
theorem C87_enough_matches {L : Lib ℚ} {c : Config} {l : VLayer (TsdfVoxel ℚ)} {points : List Pt} {st : ℕ} {T delta : Pose ℚ} {info : Vec6 ℚ}
    (h : stepICP L c l points st T = .ok (some (delta, info))) :
    ∃ ms, matchPoints L.sqrt c.batch l points st T = .ok (ms, info) ∧ 3 ≤ ms.length ∧ (c.batch : ℚ) * c.minMatchRatio < ms.length + 1 ∧
      transformFromMatched L c.refineRollPitch (ms.map (·.src)) (ms.map (·.tgt)) = .ok (delta, true) := by
  unfold stepICP at h
  obtain ⟨m, hm, h⟩ := Outcome.bind_eq_ok.1 h
  split_ifs at h with hlt
  · cases Outcome.ok.inj h
  · obtain ⟨r, hr, h⟩ := Outcome.bind_eq_ok.1 h
    have e := Outcome.ok.inj h
    split_ifs at e with hv
    have e' := Option.some.inj e
    have e1 : r.1 = delta := congrArg Prod.fst e'
    have e2 : m.2 = info := congrArg Prod.snd e'
    push Not at hlt
    unfold neededMatches at hlt
    have l1 := (le_max_left _ _).trans hlt
    have l2 := (le_max_right _ _).trans hlt
    refine ⟨m.1, by rw [hm, ← e2], by omega, ?_, ?_⟩
    · have := Int.lt_floor_add_one ((c.batch : ℚ) * c.minMatchRatio)
      have l3 : ((⌊(c.batch : ℚ) * c.minMatchRatio⌋ : ℤ) : ℚ) ≤ ((m.1.length : ℤ) : ℚ) := by exact_mod_cast l2
      push_cast at l3
      linarith
    · rw [hr, ← e1, ← hv]

example : ∃ r, stepICP runLib runConfig wall runPoints 0 exSensor = .ok (some r) := by
  have h : (match stepICP runLib runConfig wall runPoints 0 exSensor with | .ok (some _) => true | _ => false) = true := by decide +kernel
  split at h
  · rename_i r e
    exact ⟨r, e⟩
  · cases h

theorem match_empty {sqrt : ℚ → ℚ} {l : VLayer (TsdfVoxel ℚ)} (hl : l.blocks = []) {T : Pose ℚ} {p : Pt} {r : Option Match}
    (h : matchPoint sqrt l T p = .ok r) : r = none := by
  unfold matchPoint at h
  obtain ⟨v, -, h⟩ := Outcome.bind_eq_ok.1 h
  obtain ⟨d, hd, h⟩ := Outcome.bind_eq_ok.1 h
  cases d with
  | none => exact (Outcome.ok.inj h).symm
  | some d =>
    exfalso
    have e : Interp.getDistance l Interp.obsTsdf (·.distance) false (T.apply p) = Interp.nearestDistance l Interp.obsTsdf (·.distance) (T.apply p) := rfl
    rw [e] at hd
    unfold Interp.nearestDistance at hd
    obtain ⟨b, hb, hd⟩ := Outcome.bind_eq_ok.1 hd
    unfold blockAtCoords at hb
    obtain ⟨i, -, hb⟩ := Outcome.bind_eq_ok.1 hb
    have : b = none := by
      rw [← Outcome.ok.inj hb]
      unfold block?
      rw [hl]; rfl
    subst this
    cases Outcome.ok.inj hd

theorem step_none {L : Lib ℚ} {c : Config} {l : VLayer (TsdfVoxel ℚ)} {points : List Pt}
    (hc : c.batch < 3 ∨ points.length < 3 ∨ l.blocks = []) {st : ℕ} {T delta : Pose ℚ} {info : Vec6 ℚ}
    (h : stepICP L c l points st T = .ok (some (delta, info))) : False := by
  obtain ⟨ms, hm, h3, -⟩ := C87_enough_matches h
  obtain ⟨h1, h2⟩ := C88_sources hm
  have := h2.length_le
  rw [List.length_map, List.length_map, List.length_take, List.length_drop] at this
  rcases hc with hc | hc | hc
  · omega
  · omega
  · obtain ⟨rs, hrs, rfl, -⟩ := matchPoints_result hm
    have key : ∀ (ps : List Pt) (rs : List (Option Match)), ps.mapM (matchPoint L.sqrt l T) = .ok rs → rs.filterMap id = [] := by
      intro ps
      induction ps with
      | nil => intro rs h; rw [← Outcome.ok.inj h]; rfl
      | cons p ps ih =>
        intro rs h
        rw [List.mapM_cons] at h
        obtain ⟨r, hr, h⟩ := Outcome.bind_eq_ok.1 h
        obtain ⟨rs', hrs, h⟩ := Outcome.bind_eq_ok.1 h
        have : rs = r :: rs' := (Outcome.ok.inj h).symm
        subst this
        rw [match_empty hc hr]
        exact ih rs' hrs
    rw [key _ _ hrs] at h3
    simp at h3

/-- **C87.** If a batch has fewer than three points, if there are fewer than three points at all, or if the layer is empty, then the pose is the
initial one and no updates are reported, however the threads are scheduled. -/
theorem C87_pose_unchanged {L : Lib ℚ} {c : Config} {l : VLayer (TsdfVoxel ℚ)} {points : List Pt} {initial : Pose ℚ} {ks : List ℕ} {s : State}
    (hc : c.batch < 3 ∨ points.length < 3 ∨ l.blocks = []) (h : run L c l points ks (start c initial) = .ok s) :
    s.shared.pose = initial ∧ s.shared.updates = 0 := by
  refine shared_induct (fun s => s.pose = initial ∧ s.updates = 0) (fun s n t hp => hp) ?_ ?_ h
  · intro s p st delta est _ hs
    exact (step_none hc hs).elim
  · exact ⟨rfl, rfl⟩

example : ({ runConfig with batch := 2 } : Config).batch < 3 ∧
    (match run runLib { runConfig with batch := 2 } wall runPoints runSchedule (start runConfig exSensor) with | .ok _ => true | _ => false) = true :=
  ⟨by decide, by decide +kernel⟩

/-- **C87.** The number of updates reported is at most the number of batches. -/
theorem C87_updates_le {L : Lib ℚ} {c : Config} {l : VLayer (TsdfVoxel ℚ)} {points : List Pt} {initial : Pose ℚ} {ks : List ℕ} {s : State}
    (h : run L c l points ks (start c initial) = .ok s) : s.shared.updates ≤ s.shared.taken.length := by
  let busy : Phase → ℕ := fun p => match p with | .busy _ _ => 1 | _ => 0
  have key : s.shared.updates + (s.threads.map busy).sum ≤ s.shared.taken.length := by
    refine run_induct (fun s => s.shared.updates + (s.threads.map busy).sum ≤ s.shared.taken.length) ?_ ?_ h
    · intro s k s' hp ha
      rcases act_cases ha with ⟨-, rfl⟩ | ⟨ph, r, hph, hr, rfl⟩
      · exact hp
      · have st := fun a => sum_set busy s.threads k ph a hph
        rcases advance_cases hr with ⟨rfl, rfl⟩ | ⟨p, rfl, hb, rfl⟩ | ⟨p, rfl, hb, rfl⟩ | ⟨p, t, rfl, -, rfl⟩ | ⟨p, t, d, e, rfl, hs, rfl⟩ | ⟨rfl, rfl⟩
        · have := st (.idle s.shared.pose); simp only [busy] at *; omega
        · have := st .done; simp only [busy] at *; omega
        · have := st (.busy p s.shared.next)
          simp only [busy, List.length_append, List.length_cons, List.length_nil] at *; omega
        · have := st (.idle p); simp only [busy] at *; omega
        · have := st (.idle (fuse L s.shared.info e s.shared.pose d)); simp only [busy] at *; omega
        · have := st .done; simp only [busy] at *; omega
    · simp [start, busy]
  omega

example : ∃ s, run runLib runConfig wall runPoints runSchedule (start runConfig exSensor) = .ok s ∧ 0 < s.shared.updates := by
  obtain ⟨s, h, -, -, h2, -⟩ := run_example
  exact ⟨s, h, by omega⟩

/-- **C87.** However the threads are scheduled: the pose stays a rigid motion, the information never falls below the initial weights (which are
taken not to be negative, so that all weights of the fusion are defined), and if only the yaw is refined, a level sensor stays level. -/
theorem C87_pose_kept {L : Lib ℚ} (hl : IsRotationLog L.log L.exp)
    (hs : ∀ H, (L.svd2 H).1 * (L.svd2 H).1.transpose = 1 ∧ (L.svd2 H).2 * (L.svd2 H).2.transpose = 1) {c : Config}
    {l : VLayer (TsdfVoxel ℚ)} {points : List Pt} {initial : Pose ℚ} {ks : List ℕ} {s : State}
    (h : run L c l points ks (start c initial) = .ok s) :
    (IsRotation initial → IsRotation s.shared.pose) ∧
    (Every (c.translationWeight ≤ ·) s.shared.info.t ∧ Every (c.rotationWeight ≤ ·) s.shared.info.r) ∧
    (c.refineRollPitch = false → IsYaw initial → IsYaw s.shared.pose) := by
  refine ⟨fun hi => ?_, ?_, fun hr hi => ?_⟩
  · refine shared_induct (fun s => IsRotation s.pose) (fun s n t hp => hp) ?_ hi h
    intro s p st delta est hp _
    exact fuse_rotation hl _ _ hp _
  · refine shared_induct (fun s => Every (c.translationWeight ≤ ·) s.info.t ∧ Every (c.rotationWeight ≤ ·) s.info.r) (fun s n t hp => hp) ?_ ?_ h
    · intro s p st delta est ⟨⟨a1, a2, a3⟩, ⟨a4, a5, a6⟩⟩ hst
      obtain ⟨ms, hm, -⟩ := C87_enough_matches hst
      obtain ⟨⟨b1, b2, b3⟩, ⟨b4, b5, b6⟩, -⟩ := C88_information hm
      refine ⟨⟨?_, ?_, ?_⟩, ⟨?_, ?_, ?_⟩⟩ <;> simp only [Vec6.add, Vec3.add_x, Vec3.add_y, Vec3.add_z] <;> linarith
    · exact ⟨⟨le_rfl, le_rfl, le_rfl⟩, ⟨le_rfl, le_rfl, le_rfl⟩⟩
  · refine shared_induct (fun s => IsYaw s.pose) (fun s n t hp => hp) ?_ hi h
    intro s p st delta est hp hst
    obtain ⟨ms, -, -, -, ht⟩ := C87_enough_matches hst
    rw [hr] at ht
    have hd : IsYaw delta := by
      unfold transformFromMatched at ht
      obtain ⟨_, -, ht⟩ := Outcome.bind_eq_ok.1 ht
      have e := congrArg Prod.fst (Outcome.ok.inj ht)
      simp only at e
      rw [← e]
      have o := hs (correlation2 (demean (ms.map (·.src))) (demean (ms.map (·.tgt))))
      set H := correlation2 (demean (ms.map (·.src))) (demean (ms.map (·.tgt)))
      have sp := rotation2_spec (svd := fun _ => L.svd2 H) (H := (L.svd2 H).1 * Matrix.diagonal (fun _ => 1) * (L.svd2 H).2.transpose)
        ⟨o.1, o.2, fun _ => 1, fun _ => zero_le_one, fun _ _ _ => le_rfl, rfl⟩
      exact embed_rotation sp.1 sp.2.1 _
    have k := C90_yaw_only_partial hl s.info est hp.rotation hd (.inl hp)
    show IsYaw (fuse L s.info est s.pose delta)
    rw [← mul_inverse_mul (S := fuse L s.info est s.pose delta) hp.rotation]
    rw [yaw_iff] at k hp ⊢
    refine ⟨Camera.rotation_mul k.1 hp.1, ?_⟩
    rw [rotOf_mul, turn_mul, hp.2, k.2]

example : IsRotationLog runLib.log runLib.exp ∧ IsYaw exSensor ∧ runConfig.refineRollPitch = false ∧
    (∀ H, (runLib.svd2 H).1 * (runLib.svd2 H).1.transpose = 1 ∧ (runLib.svd2 H).2 * (runLib.svd2 H).2.transpose = 1) :=
  ⟨runLib_log, exSensor_yaw, rfl, fun _ => ⟨by simp [runLib], by simp [runLib]⟩⟩

/-- **C87.** With one thread the result does not depend on the schedule. -/
theorem C87_single_thread {L : Lib ℚ} {c : Config} {l : VLayer (TsdfVoxel ℚ)} {points : List Pt} {initial : Pose ℚ} {ks ks' : List ℕ}
    {s s' : State} (ht : c.threads = 1) (h : run L c l points ks (start c initial) = .ok s) (hf : s.finished)
    (h' : run L c l points ks' (start c initial) = .ok s') (hf' : s'.finished) : s = s' := by
  have key : ∀ (ks : List ℕ) (s s' : State), s.threads.length = 1 → run L c l points ks s = .ok s' →
      run L c l points (List.replicate (ks.count 0) 0) s = .ok s' := by
    intro ks
    induction ks with
    | nil => intro s s' _ h; exact h
    | cons k ks ih =>
      intro s s' hl h
      obtain ⟨s1, h1, h2⟩ := Outcome.bind_eq_ok.1 h
      have l1 : s1.threads.length = 1 := by
        have := threads_length (ks := [k]) (s := s) (s' := s1) (L := L) (c := c) (l := l) (points := points)
          (by show (act L c l points s k >>= fun s' => run L c l points [] s') = _; rw [h1]; rfl)
        omega
      have r := ih s1 s' l1 h2
      by_cases hk : k = 0
      · subst hk
        rw [List.count_cons_self, List.replicate_succ]
        show (act L c l points s 0 >>= fun s' => run L c l points (List.replicate (ks.count 0) 0) s') = _
        rw [h1]
        exact r
      · rw [List.count_cons_of_ne (by simpa using hk)]
        have : s1 = s := by
          rcases act_cases h1 with ⟨-, e⟩ | ⟨ph, _, hp, -⟩
          · exact e
          · have := (List.getElem?_eq_some_iff.1 hp).1
            omega
        rw [← this]
        exact r
  have ln : (start c initial).threads.length = 1 := by simp [start, ht]
  have a := key _ _ _ ln h
  have b := key _ _ _ ln h'
  have mono : ∀ m n : ℕ, m ≤ n → ∀ t t' : State, run L c l points (List.replicate m 0) (start c initial) = .ok t → t.finished →
      run L c l points (List.replicate n 0) (start c initial) = .ok t' → t = t' := by
    intro m n hmn t t' h1 hf h2
    obtain ⟨d, rfl⟩ := Nat.exists_eq_add_of_le hmn
    rw [List.replicate_add, run_append, h1] at h2
    exact (run_finished hf h2).symm
  rcases le_total (ks.count 0) (ks'.count 0) with hle | hle
  · exact mono _ _ hle _ _ a hf b
  · exact (mono _ _ hle _ _ b hf' a).symm

example : (match run runLib { runConfig with threads := 1 } wall runPoints (List.replicate 7 0) (start { runConfig with threads := 1 } exSensor) with
    | .ok s => s.shared.updates == 2 && s.threads.all fun p => match p with | Phase.done => true | _ => false
    | _ => false) = true := by decide +kernel

end Vox.Icp
