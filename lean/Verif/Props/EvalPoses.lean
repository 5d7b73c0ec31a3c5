/-
C108: comparing a layer with another one at several poses.
-/
import Verif.Model.EvalPoses
import Verif.Props.Evaluation
import Verif.Props.Merge
import Verif.Lemmas.LayerMsg

namespace Vox.EvalPoses

open Layer Grid Eval Merge Interp Spec

variable {V : Type}

/-! ### Transformed layers are well formed -/

theorem transformStep_keeps {ops : Ops V} {A : VLayer V} {T : Rigid} {out out' : VLayer V} {i : Idx} (w : WellFormed out)
    (nd : (out.blocks.map (·.1)).Nodup) (h : transformStep ops A T out i = .ok out') :
    WellFormed out' ∧ (out'.blocks.map (·.1)).Nodup ∧ out'.cfg = out.cfg := by
  unfold transformStep at h
  have wa := allocateBlock_wf w ops.dflt i
  have na := LayerMsg.allocateBlock_nodup nd ops.dflt i
  have ea := allocateBlock_cfg ops.dflt out i
  simp only at h
  generalize allocateBlock ops.dflt out i = d at *
  cases hb : block? d i with
  | none =>
    rw [hb] at h
    obtain rfl := Outcome.ok.inj h
    exact ⟨wa, na, ea⟩
  | some b =>
    rw [hb] at h
    obtain ⟨r, hr, h⟩ := Outcome.bind_eq_ok.1 h
    obtain ⟨b1, b2, b3, b4⟩ := wa.block i b hb
    have hl : r.length = b.voxels.length := by
      have := mapM_length hr
      rwa [List.length_range] at this
    split_ifs at h
    · obtain rfl := Outcome.ok.inj h
      refine ⟨replace_wf wa ⟨b1, b2, b3, ?_⟩, ?_, ea⟩
      · show (r.map _).length = _
        rw [List.length_map, hl, b4]
      · rw [LayerMsg.modifyBlock_keys]
        exact na
    · obtain rfl := Outcome.ok.inj h
      exact ⟨remove_wf wa i, (List.Sublist.map _ List.filter_sublist).nodup na, ea⟩

theorem transformSteps_keeps {ops : Ops V} {A : VLayer V} {T : Rigid} {js : List Idx} {out out' : VLayer V} (w : WellFormed out)
    (nd : (out.blocks.map (·.1)).Nodup) (h : js.foldlM (transformStep ops A T) out = .ok out') :
    WellFormed out' ∧ (out'.blocks.map (·.1)).Nodup ∧ out'.cfg = out.cfg := by
  induction js generalizing out with
  | nil =>
    obtain rfl := Outcome.ok.inj h
    exact ⟨w, nd, rfl⟩
  | cons j js ih =>
    rw [List.foldlM_cons] at h
    obtain ⟨o, h1, h⟩ := Outcome.bind_eq_ok.1 h
    obtain ⟨w1, n1, e1⟩ := transformStep_keeps w nd h1
    obtain ⟨a, b, c⟩ := ih w1 n1 h
    exact ⟨a, b, c.trans e1⟩

theorem transform_keeps {ops : Ops V} {order : List Idx → List Idx} {A : VLayer V} {T : Rigid} {out out' : VLayer V} (w : WellFormed out)
    (nd : (out.blocks.map (·.1)).Nodup) (h : transformLayer ops order A T out = .ok out') :
    WellFormed out' ∧ (out'.blocks.map (·.1)).Nodup ∧ out'.cfg = out.cfg := by
  unfold transformLayer at h
  obtain ⟨is, -, h⟩ := Outcome.bind_eq_ok.1 h
  exact transformSteps_keeps w nd h

theorem prepare_of_length {n : ℕ} {v : List (Entry V)} (h : v.length = n) : prepare n v = v := if_neg (not_not.2 h)

/-- What is to be reported for one pose: layer B is moved into the grid of B's voxels in the frame of A, and compared with A. -/
def EvaluatedAt (N : Num) (S : Sdf V) (ops : Ops V) (order : List Idx → List Idx) (m : Mode) (A B : VLayer V) (E : Option (VLayer V)) (T : Rigid)
    (r : Details × VLayer V × Option (VLayer V)) : Prop :=
  transformLayer ops order B T ⟨B.cfg, []⟩ = .ok r.2.1 ∧ evaluateLayersRmse N S A r.2.1 m E = .ok (r.1, r.2.2)

theorem take_set_succ {α : Type} {L : List α} {k : ℕ} (hk : k < L.length) (x : α) : (L.set k x).take (k + 1) = L.take k ++ [x] := by
  rw [List.set_eq_take_append_cons_drop, if_pos hk, List.take_append, List.length_take, min_eq_left hk.le,
    List.take_of_length_le (by rw [List.length_take]; omega), show k + 1 - k = 1 by omega]
  rfl

theorem steps (N : Num) (S : Sdf V) (ops : Ops V) (order : List Idx → List Idx) (m : Mode) (A B : VLayer V) (n : ℕ) (Ts : List Rigid)
    (ds ds' : List Details) (ls ls' : Option (List (Entry V))) (k : ℕ)
    (h : (Ts.zipIdx k).foldlM (poseStep N S ops order m A B n) (ds, ls) = .ok (ds', ls')) (hn : k + Ts.length = n) :
    ∃ rs, List.Forall₂ (EvaluatedAt N S ops order m A B (ls.map fun _ => ⟨A.cfg, []⟩)) Ts rs ∧ ds' = ds ++ rs.map (·.1) ∧
      (ls = none → ls' = none) ∧
      ∀ v, ls = some v → Ts ≠ [] →
        ls' = some ((prepare n v).take k ++ rs.map fun r => (some r.2.1, r.2.2)) := by
  induction Ts generalizing ds ls k with
  | nil =>
    obtain ⟨rfl, rfl⟩ := Prod.mk.inj (Outcome.ok.inj h)
    exact ⟨[], .nil, by simp, id, fun v _ h => absurd rfl h⟩
  | cons T Ts ih =>
    rw [List.zipIdx_cons, List.foldlM_cons] at h
    obtain ⟨⟨ds1, ls1⟩, h1, h⟩ := Outcome.bind_eq_ok.1 h
    unfold poseStep at h1
    obtain ⟨al, ha, h1⟩ := Outcome.bind_eq_ok.1 h1
    obtain ⟨⟨d, er⟩, he, h1⟩ := Outcome.bind_eq_ok.1 h1
    obtain ⟨rfl, rfl⟩ := Prod.mk.inj (Outcome.ok.inj h1)
    have hn' : k + 1 + Ts.length = n := by rw [← hn, List.length_cons]; omega
    obtain ⟨rs, f, e1, e2, e3⟩ := ih _ _ _ h hn'
    refine ⟨(d, al, er) :: rs, .cons ⟨ha, he⟩ ?_, by simp [e1], ?_, ?_⟩
    · rwa [Option.map_map] at f
    · rintro rfl
      exact e2 rfl
    · rintro v rfl -
      have hp : (prepare n v).length = n := by
        unfold prepare
        split_ifs with hl
        · rw [List.length_replicate]
        · simpa using hl
      have hset : ((prepare n v).set k (some al, er)).length = n := by rw [List.length_set, hp]
      by_cases hT : Ts = []
      · subst hT
        obtain ⟨rfl, rfl⟩ := Prod.mk.inj (Outcome.ok.inj h)
        cases f
        simp only [List.map_cons, List.map_nil, List.length_nil, List.length_cons] at *
        have hk : k < (prepare n v).length := by omega
        show some ((prepare n v).set k (some al, er)) = some _
        rw [← take_set_succ hk, List.take_of_length_le (by rw [List.length_set]; omega)]
      · have := e3 _ rfl hT
        rw [this]
        have hpp : prepare n ((prepare n v).set k (some al, er)) = (prepare n v).set k (some al, er) := by
          exact prepare_of_length hset
        have hk : k < (prepare n v).length := by rw [hp]; omega
        rw [hpp, take_set_succ hk, List.map_cons, List.append_assoc]
        rfl

/-- **C108 (each pose).** For every list of poses the details of each pose are added in order, each as if it was the only pose; and if layers are asked for,
there are as many pairs of layers afterwards as poses, the aligned layer and the error layer of each pose, whatever was in the vector. -/
theorem C108_each {N : Num} {S : Sdf V} {ops : Ops V} {order : List Idx → List Idx} {m : Mode} {A B : VLayer V} {Ts : List Rigid} {ds ds' : List Details}
    {ls ls' : Option (List (Entry V))} (h : evaluateAtPoses N S ops order m A B Ts ds ls = .ok (ds', ls')) :
    ∃ rs, List.Forall₂ (EvaluatedAt N S ops order m A B (ls.map fun _ => ⟨A.cfg, []⟩)) Ts rs ∧ ds' = ds ++ rs.map (·.1) ∧
      (ls = none → ls' = none) ∧ (ls ≠ none → Ts ≠ [] → ls' = some (rs.map fun r => (some r.2.1, r.2.2))) := by
  unfold evaluateAtPoses at h
  obtain ⟨_, -, h⟩ := Outcome.bind_eq_ok.1 h
  obtain ⟨rs, f, e1, e2, e3⟩ := steps N S ops order m A B Ts.length Ts ds ds' ls ls' 0 h (by omega)
  refine ⟨rs, f, e1, e2, fun hl hT => ?_⟩
  cases ls with
  | none => exact absurd rfl hl
  | some v => simpa using e3 v rfl hT

/-- **C108 (incompatible layers).** Layers whose voxel sizes differ by more than 1e-8, or whose sides differ, are refused, for all poses. -/
theorem C108_incompatible (N : Num) (S : Sdf V) (ops : Ops V) (order : List Idx → List Idx) (m : Mode) (A B : VLayer V) (Ts : List Rigid)
    (ds : List Details) (ls : Option (List (Entry V))) (h : 1 / 100000000 < |A.cfg.voxelSize - B.cfg.voxelSize| ∨ A.cfg.vps ≠ B.cfg.vps) :
    evaluateAtPoses N S ops order m A B Ts ds ls = .fatal := by
  have hc : compatible A B = false := by
    by_contra hc
    have hc : compatible A B = true := by simpa using hc
    unfold compatible kMargin at hc
    simp only [Bool.and_eq_true, decide_eq_true_eq] at hc
    obtain ⟨⟨h1, h2⟩, h3⟩ := hc
    rcases h with h | h
    · exact absurd h (not_lt.2 (abs_le.2 ⟨by linarith, by linarith⟩))
    · exact h h3
  unfold evaluateAtPoses
  rw [hc]
  rfl

/-- **C108 (layers on request).** Asking for the layers does not change the details. -/
theorem C108_optional {N : Num} {S : Sdf V} {ops : Ops V} {order : List Idx → List Idx} {m : Mode} {A B : VLayer V} (wa : WellFormed A) (wb : WellFormed B)
    {Ts : List Rigid} {ds d1 d2 : List Details} {v : List (Entry V)} {l1 l2 : Option (List (Entry V))}
    (h1 : evaluateAtPoses N S ops order m A B Ts ds none = .ok (d1, l1)) (h2 : evaluateAtPoses N S ops order m A B Ts ds (some v) = .ok (d2, l2)) :
    d1 = d2 := by
  have hv : A.cfg.vps = B.cfg.vps := by
    by_contra hn
    rw [C108_incompatible N S ops order m A B Ts ds none (.inr hn)] at h1
    cases h1
  obtain ⟨r1, f1, rfl, -⟩ := C108_each h1
  obtain ⟨r2, f2, rfl, -⟩ := C108_each h2
  congr 1
  clear h1 h2
  induction f1 generalizing r2 with
  | nil => cases f2; rfl
  | cons a1 f1 ih =>
    cases f2 with
    | cons a2 f2 =>
      rw [List.map_cons, List.map_cons, ih _ f2]
      congr 1
      obtain ⟨t1, e1⟩ := a1
      obtain ⟨t2, e2⟩ := a2
      have et := Outcome.ok.inj (t1.symm.trans t2)
      have we : WellFormed (⟨B.cfg, []⟩ : VLayer V) := empty_wf wb.size_pos wb.side_pos wb.side_le
      obtain ⟨wt, nt, ct⟩ := transform_keeps we (by simp) t1
      rw [et] at wt nt ct e1
      have hvt := hv.trans (congrArg Cfg.vps ct).symm
      obtain ⟨_, g1, -⟩ := evaluate_ok N S m wa wt hvt nt none nofun
      obtain ⟨_, g2, -⟩ := evaluate_ok N S m wa wt hvt nt (some ⟨A.cfg, []⟩) (fun l hl => by
        obtain rfl := Option.some.inj hl
        exact ⟨empty_wf wa.size_pos wa.side_pos wa.side_le, hvt⟩)
      have k1 := Outcome.ok.inj (e1.symm.trans g1)
      have k2 := Outcome.ok.inj (e2.symm.trans g2)
      rw [(Prod.mk.inj k1).1, (Prod.mk.inj k2).1]

open Classical in
/-- **C108 (a layer and itself).** Compared with itself at the identity, a TSDF layer has no error: the RMSE and the largest error are zero, and (behind no
surface) every measured voxel is evaluated. Weights are single precision numbers, so none lies between the `double` closest to 1e-6 and 1e-6. -/
theorem C108_self {N : Num} (m1 : Monotone N.rnd) (m2 : Monotone N.rndD) (z1 : N.rnd 0 = 0) (i2 : ∀ q, N.rndD (N.rnd q) = N.rnd q)
    (i3 : ∀ q, N.rndD (N.rndD q) = N.rndD q) (hz : N.sqrt 0 = 0) (hpos : ∀ q (n : ℕ), 0 < q → 0 < n → N.rnd (N.sqrt (N.rndD (q / n))) ≠ 0)
    (order : List Idx → List Idx) (hord : ∀ is, (order is).Perm is) (m : Mode) {A : VLayer (TsdfVoxel ℚ)} (wa : WellFormed A)
    (na : (A.blocks.map (·.1)).Nodup)
    (hr : ∀ j, Allocated A j → (imageCenter A Rigid.id j).All fun c => |c| + reach A + 4 * (A.cfg.voxelSize * A.cfg.vps) ≤ 2 ^ 30 * A.cfg.voxelSize)
    (hw : ∀ g a, content A g = some a → (kObserved < a.weight ↔ 1 / 1000000 < a.weight)) (ds : List Details) {L : List Idx} (hL : Lists A A L) :
    ∃ d, evaluateAtPoses N tsdf tsdfOps order m A A [Rigid.id] ds none = .ok (ds ++ [d], none) ∧ d.rmse = 0 ∧ d.maxError = 0 ∧
      (m = .all → d.numEvaluated = L.countP fun g => decide (∃ a, content A g = some a ∧ kObserved < a.weight)) := by
  obtain ⟨al, ht, wt, ct, hk, hk'⟩ := C65_identity_partial order hord wa hr
  have we : WellFormed (⟨A.cfg, []⟩ : VLayer (TsdfVoxel ℚ)) := empty_wf wa.size_pos wa.side_pos wa.side_le
  obtain ⟨-, nt, -⟩ := transform_keeps we (by simp) ht
  have hv : A.cfg.vps = al.cfg.vps := by rw [ct]
  have hov : ∀ g, Overlaps tsdf A al g → ∃ a, content A g = some a ∧ content al g = some a ∧ kObserved < a.weight := by
    rintro g ⟨a, b, ha, hb, oa, ob⟩
    have oa' : kObserved < a.weight := by simpa [tsdf] using oa
    have : obsTsdf a = true := by simpa [obsTsdf] using (hw g a ha).1 oa'
    exact ⟨a, ha, hk g a ha this, oa'⟩
  have hev : ∀ g e, Evaluated tsdf N.rnd m A al g e → e = 0 := by
    rintro g e ⟨ho, -, a, b, ha, hb, rfl⟩
    obtain ⟨a', h1, h2, -⟩ := hov g ho
    rw [ha] at h1
    rw [hb] at h2
    rw [Option.some.inj h1, Option.some.inj h2, sub_self, z1]
  obtain ⟨d, hd, -, hd0⟩ := C58_rmse_zero m1 m2 z1 i2 i3 hz hpos tsdf m wa wt hv na nt
  obtain ⟨d', hd', hm1, hm2⟩ := C58_max N tsdf m wa wt hv na nt
  obtain rfl := (Prod.mk.inj (Outcome.ok.inj (hd.symm.trans hd'))).1
  refine ⟨d, ?_, hd0 hev, ?_, ?_⟩
  · unfold evaluateAtPoses
    have hc : compatible A A = true := by
      unfold compatible kMargin
      simp only [Bool.and_eq_true, decide_eq_true_eq]
      exact ⟨⟨by linarith, by linarith⟩, trivial⟩
    rw [hc]
    have hs : poseStep N tsdf tsdfOps order m A A 1 (ds, none) (Rigid.id, 0) = .ok (ds ++ [d], none) := by
      unfold poseStep
      rw [ht]
      show (evaluateLayersRmse N tsdf A al m none >>= _) = _
      rw [hd]
      rfl
    show [(Rigid.id, 0)].foldlM (poseStep N tsdf tsdfOps order m A A 1) (ds, none) = _
    rw [List.foldlM_cons, hs]
    rfl
  · rcases hm2 with ⟨g, e, he, hme⟩ | ⟨h0, -⟩
    · rw [hme, hev g e he, abs_zero]
    · exact h0
  · rintro rfl
    have hV := visited_lists wa wt hv na nt
    obtain ⟨d', hd', hc, -⟩ := C58_counts N tsdf .all wa wt hv na nt hV
    obtain rfl := (Prod.mk.inj (Outcome.ok.inj (hd.symm.trans hd'))).1
    rw [hc]
    have hiff : ∀ g, (Overlaps tsdf A al g ∧ ¬ Behind tsdf .all A al g) ↔ ∃ a, content A g = some a ∧ kObserved < a.weight := by
      intro g
      constructor
      · rintro ⟨ho, -⟩
        obtain ⟨a, h1, -, h2⟩ := hov g ho
        exact ⟨a, h1, h2⟩
      · rintro ⟨a, h1, h2⟩
        have : obsTsdf a = true := by simpa [obsTsdf] using (hw g a h1).1 h2
        refine ⟨⟨a, a, h1, hk g a h1 this, by simpa [tsdf] using h2, by simpa [tsdf] using h2⟩, ?_⟩
        rintro (⟨h | h, _⟩ | ⟨h | h, _⟩) <;> cases h
    simp only [hiff]
    rw [List.countP_eq_length_filter, List.countP_eq_length_filter]
    refine List.Perm.length_eq ((List.perm_ext_iff_of_nodup (hV.1.filter _) (hL.1.filter _)).2 fun g => ?_)
    rw [List.mem_filter, List.mem_filter, hV.2, hL.2]
    constructor
    · rintro ⟨-, h⟩
      obtain ⟨a, h1, -⟩ := of_decide_eq_true h
      exact ⟨.inl (by rw [h1]; rfl), h⟩
    · rintro ⟨-, h⟩
      obtain ⟨a, h1, -⟩ := of_decide_eq_true h
      exact ⟨.inl (by rw [h1]; rfl), h⟩

/-! ### Examples -/

/-- Two poses. -/
def exPoses : List Rigid := [Rigid.id, Merge.exShift]

/-- A run with both poses. -/
def exRun (ds : List Details) (ls : Option (List (Entry (TsdfVoxel ℚ)))) : Outcome (List Details × Option (List (Entry (TsdfVoxel ℚ)))) :=
  evaluateAtPoses exNum tsdf tsdfOps id .all Merge.exA Merge.exA exPoses ds ls

theorem exRun_ok : (∃ r, exRun [] none = .ok r) ∧ ∃ r, exRun [] (some []) = .ok r := by
  have h : (match exRun [] none, exRun [] (some []) with | .ok _, .ok _ => true | _, _ => false) = true := by decide +kernel
  split at h
  · rename_i a b e1 e2
    exact ⟨⟨a, e1⟩, b, e2⟩
  · cases h

example : ∃ ds' ls', evaluateAtPoses exNum tsdf tsdfOps id .all Merge.exA Merge.exA exPoses [] (some []) = .ok (ds', ls') ∧ exPoses ≠ [] := by
  obtain ⟨-, r, h⟩ := exRun_ok
  exact ⟨r.1, r.2, h, by simp [exPoses]⟩

example : WellFormed Merge.exA ∧ ∃ d1 l1 d2 l2, evaluateAtPoses exNum tsdf tsdfOps id .all Merge.exA Merge.exA exPoses [] none = .ok (d1, l1) ∧
    evaluateAtPoses exNum tsdf tsdfOps id .all Merge.exA Merge.exA exPoses [] (some []) = .ok (d2, l2) := by
  obtain ⟨⟨a, e1⟩, b, e2⟩ := exRun_ok
  exact ⟨Merge.exOne_wf (by norm_num) _ _ _, a.1, a.2, b.1, b.2, e1, e2⟩

example : (1 : ℚ) / 100000000 < |Merge.exA.cfg.voxelSize - (⟨⟨1, 2⟩, []⟩ : VLayer (TsdfVoxel ℚ)).cfg.voxelSize| := by decide +kernel

example : (Merge.exA.blocks.map (·.1)).Nodup ∧ (∀ g a, content Merge.exA g = some a → (kObserved < a.weight ↔ 1 / 1000000 < a.weight)) ∧
    Lists Merge.exA Merge.exA (visited Merge.exA Merge.exA) := by
  have w : WellFormed Merge.exA := Merge.exOne_wf (by norm_num) _ _ _
  have n : (Merge.exA.blocks.map (·.1)).Nodup := by decide
  refine ⟨n, fun g a h => ?_, visited_lists w w rfl n n⟩
  have ha : a.weight = 3 := by
    have : ∀ x ∈ Merge.exA.blocks.flatMap (·.2.voxels), x.weight = 3 := by decide +kernel
    unfold content at h
    obtain ⟨b, hb, h⟩ := Option.bind_eq_some_iff.1 h
    have hm : (_, b) ∈ Merge.exA.blocks := Layer.lookup_some_mem hb
    exact this a (List.mem_flatMap.2 ⟨_, hm, List.mem_of_getElem? h⟩)
  rw [ha]
  norm_num [kObserved]

/-- **C108 (no poses).** Without poses nothing is changed: the vector of layers keeps what it had. -/
theorem C108_none (N : Num) (S : Sdf V) (ops : Ops V) (order : List Idx → List Idx) (m : Mode) {A B : VLayer V} (hs : A.cfg = B.cfg) (ds : List Details)
    (ls : Option (List (Entry V))) : evaluateAtPoses N S ops order m A B [] ds ls = .ok (ds, ls) := by
  have hc : compatible A B = true := by
    unfold compatible kMargin
    rw [hs]
    simp only [Bool.and_eq_true, decide_eq_true_eq]
    exact ⟨⟨by linarith, by linarith⟩, trivial⟩
  unfold evaluateAtPoses
  rw [hc]
  rfl

/-- **C108 (violated).** The details and the layers of a call do not correspond if the vectors have been used before: details are added at the end, layers
replace what was there; and without poses old layers remain. -/
theorem C108_reused_violated :
    (∃ ds ls ds' ls', exRun [] (some []) = .ok (ds, some ls) ∧ exRun ds (some ls) = .ok (ds', some ls') ∧ ds'.length = 4 ∧ ls'.length = 2) ∧
    ∃ (ls : List (Entry (TsdfVoxel ℚ))), evaluateAtPoses exNum tsdf tsdfOps id .all Merge.exA Merge.exA [] [] (some ls) = .ok ([], some ls) ∧ ls.length = 1 := by
  refine ⟨?_, [(none, none)], C108_none _ _ _ _ _ rfl _ _, rfl⟩
  have h : (match exRun [] (some []) with
    | .ok (ds, some ls) =>
      match exRun ds (some ls) with
      | .ok (ds', some ls') => decide (ds'.length = 4 ∧ ls'.length = 2)
      | _ => false
    | _ => false) = true := by decide +kernel
  split at h
  · rename_i ds ls e1
    split at h
    · rename_i ds' ls' e2
      obtain ⟨h1, h2⟩ := of_decide_eq_true h
      exact ⟨ds, ls, ds', ls', e1, e2, h1, h2⟩
    · cases h
  · cases h

end Vox.EvalPoses
