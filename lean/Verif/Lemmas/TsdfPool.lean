/-
Lemmas about executions of the worker pool: completed runs, faults, progress, and the runs of the integrators.
-/
import Verif.Lemmas.TsdfScan
import Verif.Props.Dispatch
import Verif.Lemmas.Tsdf
import Verif.Lemmas.RoundError

namespace Vox.TsdfScan

open Layer Grid Tsdf Spec

/-! ### The order of the points -/

theorem mapM_ok_iff {α β : Type} (f : α → Outcome β) : ∀ (xs : List α) (ys : List β),
    xs.mapM f = .ok ys ↔ xs.map f = ys.map .ok := by
  intro xs
  induction xs with
  | nil => intro ys; cases ys <;> simp
  | cons x xs ih =>
    intro ys
    rw [List.mapM_cons, Outcome.bind_eq_ok]
    constructor
    · rintro ⟨y, hy, h⟩
      obtain ⟨zs, hz, h⟩ := Outcome.bind_eq_ok.1 h
      obtain rfl := Outcome.ok.inj h
      simp [hy, (ih zs).1 hz]
    · intro h
      cases ys with
      | nil => simp at h
      | cons y ys =>
        simp only [List.map_cons, List.cons.injEq] at h
        refine ⟨y, h.1, Outcome.bind_eq_ok.2 ⟨ys, (ih ys).2 h.2, rfl⟩⟩

theorem order_perm {sort : List (ℕ × Fl) → List (ℕ × Fl)} (hs : Dispatch.IsStdSort sort) {mode : String} {norms : List Fl}
    {is : List ℕ} (h : order sort mode norms = .ok is) : is.Perm (List.range norms.length) := by
  obtain ⟨g, hg, h⟩ := Outcome.bind_eq_ok.1 (show (Dispatch.factory sort mode norms >>= fun g =>
    (List.range norms.length).mapM g.impl) = _ from h)
  have ho : IsOrder norms.length g.impl := by
    by_cases h1 : mode = "mixed"
    · subst h1
      simp only [Dispatch.factory, if_true, Outcome.ok.injEq] at hg
      subst hg
      exact Props.C29_mixed_order _
    · by_cases h2 : mode = "sorted"
      · subst h2
        have hn : norms.length ≤ 1 ∨ Fl.nan ∉ norms := by
          by_contra hc
          rw [not_or, not_not, not_le] at hc
          rw [Props.C30_nan_undefined sort norms hc.1 hc.2] at hg
          cases hg
        obtain ⟨g', hg', ho, _⟩ := Props.C30_sorted_order hs norms hn
        rw [hg', Outcome.ok.injEq] at hg
        subst hg
        exact ho
      · rw [Props.C30_unknown_mode_refused sort mode norms h1 h2] at hg
        cases hg
  obtain ⟨l, hl, hp⟩ := ho
  have := ((mapM_ok_iff _ _ _).1 h).symm.trans hl
  have e : is = l := by
    have hinj : Function.Injective (Outcome.ok : ℕ → Outcome ℕ) := fun a b h => Outcome.ok.inj h
    exact List.map_injective_iff.2 hinj this
  exact e ▸ hp

theorem map_getElem? {α β : Type} (f : Option α → β) (xs : List α) :
    (List.range xs.length).map (fun i => f xs[i]?) = xs.map fun x => f (some x) := by
  apply List.ext_getElem
  · simp
  · intro k h1 h2
    have : k < xs.length := by simpa using h2
    simp [List.getElem?_eq_getElem this]

theorem jobsFor_perm (job : Vec3 Fl × Color → Job) (cloud : List (Vec3 Fl × Color)) {is : List ℕ}
    (h : is.Perm (List.range cloud.length)) : (jobsFor job cloud is).Perm (cloud.map job) := by
  refine (h.map _).trans ?_
  have := map_getElem? (fun o : Option (Vec3 Fl × Color) => match o with
    | some p => job p
    | none => (Outcome.ub : Job)) cloud
  exact List.Perm.of_eq this

theorem visitsOf_perm {js ks : List Job} (h : js.Perm ks) : (visitsOf js).Perm (visitsOf ks) := h.flatMap_right _

/-! ### Completed runs -/

theorem runs_jobs {A : Arith} {P : Params} {n : ℕ} {s₀ s : Pool} (h : Runs A P n s₀ s) :
    (∀ j ∈ s₀.todo, (∃ vs, j = .ok vs) ∨ j ∈ s.todo) ∧ ∀ t, ∀ j ∈ s₀.queue t, (∃ vs, j = .ok vs) ∨ j ∈ s.queue t := by
  induction h with
  | refl => exact ⟨fun j hj => Or.inr hj, fun t j hj => Or.inr hj⟩
  | step hrun hact ih =>
    obtain ⟨ih1, ih2⟩ := ih
    cases hact with
    | take t vs rest ht hp htodo =>
      refine ⟨fun j hj => ?_, ih2⟩
      rcases ih1 j hj with h | h
      · exact Or.inl h
      · rw [htodo] at h
        rcases List.mem_cons.1 h with h | h
        · exact Or.inl ⟨vs, h⟩
        · exact Or.inr h
    | own t vs rest ht hp hq =>
      refine ⟨ih1, fun u j hj => ?_⟩
      rcases ih2 u j hj with h | h
      · exact Or.inl h
      · by_cases hu : u = t
        · subst hu
          rw [hq] at h
          rcases List.mem_cons.1 h with h | h
          · exact Or.inl ⟨vs, h⟩
          · refine Or.inr ?_
            simp only [Function.update_self]
            exact h
        · refine Or.inr ?_
          simp only [Function.update_of_ne hu]
          exact h
    | visit t w ws st ht hp hv => exact ⟨ih1, ih2⟩

theorem done_open {n : ℕ} {s : Pool} (h : s.Done n) : s.open n = [] := by
  unfold Pool.open
  rw [h.1]
  simp only [List.append_eq_nil_iff, List.flatMap_eq_nil_iff, List.mem_range]
  refine ⟨by simp [visitsOf], fun t ht => ?_⟩
  obtain ⟨h1, h2⟩ := h.2 t ht
  rw [h1, h2]
  exact ⟨rfl, by simp [visitsOf]⟩

/-- A completed run has made all visits of all jobs, and no job failed. -/
theorem parallel_ok {A : Arith} {P : Params} {n k : ℕ} {l l' : VLayer (TsdfVoxel Fl)} (wf : WellFormed l) (hk : k < 31)
    (hside : l.cfg.vps = 2 ^ k) {todo : List Job} {queue : ℕ → List Job}
    (hr : InReach (visitsOf todo ++ (List.range n).flatMap fun t => visitsOf (queue t)))
    (h : Parallel A P n l todo queue (.ok l')) :
    Adds A P l (visitsOf todo ++ (List.range n).flatMap fun t => visitsOf (queue t)) l' ∧
      (∀ j ∈ todo, ∃ vs, j = .ok vs) ∧ ∀ t < n, ∀ j ∈ queue t, ∃ vs, j = .ok vs := by
  generalize hres : (Outcome.ok l' : Outcome (VLayer (TsdfVoxel Fl))) = r at h
  cases h with
  | fault hrun hf => subst hres; cases hf
  | done hrun hdone =>
    rename_i s
    have hopen : Pool.open n { store := Store.start l, todo := todo, queue := queue, pending := fun _ => [] } =
        visitsOf todo ++ (List.range n).flatMap fun t => visitsOf (queue t) := by simp [Pool.open]
    obtain ⟨ws, haf, hperm⟩ := pool_runs hk (Store.start_inv wf) hside (hopen ▸ hr) hrun
    rw [done_open hdone, List.append_nil, hopen] at hperm
    obtain ⟨hj1, hj2⟩ := runs_jobs hrun
    refine ⟨haf.adds hperm hres.symm, fun j hj => ?_, fun t ht j hj => ?_⟩
    · rcases hj1 j hj with h | h
      · exact h
      · rw [hdone.1] at h; cases h
    · rcases hj2 t j hj with h | h
      · exact h
      · rw [(hdone.2 t ht).1] at h; cases h

/-! ### Faults -/

/-- The weights of voxels considered: not negative and, in `float`, far from overflow. -/
def VoxelWeight (A : Arith) (W : ℚ) : Prop := 0 ≤ W ∧ (A = Ieee.float32 → W ≤ 2 ^ 100)

/-- The weights of observations considered. -/
def ObsWeight (A : Arith) (w : ℚ) : Prop := 0 ≤ w ∧ (A = Ieee.float32 → w ≤ 2 ^ 70)

/-- All voxels have such weights. -/
def GoodWeights (A : Arith) (l : VLayer (TsdfVoxel Fl)) : Prop := ∀ g v, content l g = some v → ∃ W, v.weight = .fin W ∧ VoxelWeight A W

/-- Conditions under which a voxel update is always defined (C26): rounding with a small relative error, without overflow or underflow; or `float`
arithmetic with parameters of moderate size. -/
inductive Sane (A : Arith) (cfg : Config) (vs : ℚ) : Prop where
  | relative (d T M F : ℚ) (arith : RelErr A d) (low : 0 ≤ d) (small : d ≤ 1 / 4096) (truncation : cfg.truncation = .fin T)
    (maxWeight : cfg.maxWeight = .fin M) (limit : 0 ≤ M) (factor : cfg.sparsityFactor = .fin F) (pos : 0 ≤ F)
  | float (T M F : ℚ) (arith : A = Ieee.float32) (truncation : cfg.truncation = .fin T) (floatT : Ieee.rnd32 T = T) (maxT : T ≤ 2 ^ 40)
    (floatV : Ieee.rnd32 vs = vs) (maxV : |vs| ≤ 2 ^ 40) (maxWeight : cfg.maxWeight = .fin M) (limit : 0 ≤ M) (maxM : M ≤ 2 ^ 100)
    (factor : cfg.sparsityFactor = .fin F) (pos : 0 ≤ F) (maxF : F ≤ 2 ^ 20)

theorem relErr_not_float {A : Arith} {d : ℚ} (h : RelErr A d) : A ≠ Ieee.float32 := by
  rintro rfl
  obtain ⟨q, h1, -⟩ := h (2 ^ 200)
  have h2 : (match Ieee.float32.rnd (2 ^ 200) with | .pinf => true | _ => false) = true := by decide +kernel
  rw [h1] at h2
  cases h2

theorem Sane.update {A : Arith} {cfg : Config} {vs : ℚ} (h : Sane A cfg vs) {o : Obs} (ho : ∃ w, o.weight = .fin w ∧ ObsWeight A w)
    {v : TsdfVoxel Fl} (hv : ∃ W, v.weight = .fin W ∧ VoxelWeight A W) :
    ∃ v', updateVoxel A cfg (.fin vs) o v = .ok v' ∧ ∃ W', v'.weight = .fin W' ∧ VoxelWeight A W' := by
  obtain ⟨w, hw, hw0, hw1⟩ := ho
  obtain ⟨W, hW, hW0, hW1⟩ := hv
  cases h with
  | relative d T M F h1 h2 h3 hT hM hM0 hF hF0 =>
    obtain ⟨v', e1, ⟨W', e2, e3⟩, -⟩ := updateVoxel_defined (vs := vs) h1 h2 h3 hT hM hM0 hF hF0 hw hw0 hW hW0
    exact ⟨v', e1, W', e2, e3, fun h => absurd h (relErr_not_float h1)⟩
  | float T M F hA hT hT1 hT2 hv1 hv2 hM hM0 hM1 hF hF0 hF1 =>
    subst hA
    obtain ⟨v', e1, ⟨W', e2, e3, e4⟩, -⟩ := RoundErr.updateVoxel32 hT hT1 hT2 hv1 hv2 hM hM0 hM1 hF hF0 hF1 hw hw0 (hw1 rfl) hW hW0 (hW1 rfl)
    exact ⟨v', e1, W', e2, e3, fun _ => e4⟩

theorem Sane.point {A : Arith} {cfg : Config} {vs : ℚ} (h : Sane A cfg vs) (z : Fl) : ∃ w, voxelWeight A cfg z = .fin w ∧ ObsWeight A w := by
  cases h with
  | relative d T M F h1 h2 h3 =>
    obtain ⟨w, e1, e2⟩ := voxelWeight_finite h1 (by linarith) cfg z
    exact ⟨w, e1, e2, fun h => absurd h (relErr_not_float h1)⟩
  | float T M F hA =>
    subst hA
    obtain ⟨w, e1, e2, e3⟩ := RoundErr.voxelWeight32 cfg z
    exact ⟨w, e1, e2, fun _ => le_trans e3 (by norm_num)⟩

theorem Sane.bundle {A : Arith} {cfg : Config} {vs : ℚ} (h : Sane A cfg vs) (clearing : Bool) (ps : List (Vec3 Fl × Color)) :
    ∃ b, mergeBundle A cfg clearing ps Bundle.init = .ok b ∧ ∃ W, b.weight = .fin W ∧ ObsWeight A W := by
  cases h with
  | relative d T M F h1 h2 h3 =>
    obtain ⟨b, e1, W, e2, e3⟩ := mergeBundle_defined h1 h2 h3 cfg clearing ps Bundle.init ⟨0, rfl, le_rfl⟩
    exact ⟨b, e1, W, e2, e3, fun h => absurd h (relErr_not_float h1)⟩
  | float T M F hA =>
    subst hA
    obtain ⟨b, e1, W, e2, e3, e4⟩ := RoundErr.mergeBundle32 cfg clearing ps Bundle.init ⟨0, rfl, le_rfl, by positivity⟩
    exact ⟨b, e1, W, e2, e3, fun _ => e4⟩

theorem voxelWeight_zero (A : Arith) : VoxelWeight A 0 := ⟨le_rfl, fun _ => by positivity⟩

theorem Sane.integrate {A : Arith} {cfg : Config} {vs : ℚ} (h : Sane A cfg vs) (os : List Obs)
    (ho : ∀ o ∈ os, ∃ w, o.weight = .fin w ∧ ObsWeight A w) : ∀ {v v' : TsdfVoxel Fl}, (∃ W, v.weight = .fin W ∧ VoxelWeight A W) →
    Tsdf.integrate A cfg (.fin vs) os v = .ok v' → ∃ W', v'.weight = .fin W' ∧ VoxelWeight A W' := by
  induction os with
  | nil => intro v v' hv h; obtain rfl := Outcome.ok.inj h; exact hv
  | cons o os ih =>
    intro v v' hv hint
    obtain ⟨v1, h1, h2⟩ := Outcome.bind_eq_ok.1 (show (updateVoxel A cfg (.fin vs) o v >>= Tsdf.integrate A cfg (.fin vs) os) = _ from hint)
    obtain ⟨v1', e1, e2⟩ := h.update (ho o (by simp)) hv
    rw [h1] at e1
    obtain rfl := Outcome.ok.inj e1
    exact ih (fun o ho' => ho o (by simp [ho'])) e2 h2

theorem mem_obsOf {ws : List Visit} {g : Idx} {o : Obs} (h : o ∈ obsOf ws g) : ∃ w ∈ ws, w.obs = o := by
  unfold obsOf at h
  obtain ⟨w, hw, rfl⟩ := List.mem_map.1 h
  exact ⟨w, List.mem_of_mem_filter hw, rfl⟩

theorem After.weights {A : Arith} {P : Params} {l : VLayer (TsdfVoxel Fl)} (hs : Sane A P.tsdf l.cfg.voxelSize) (hl : GoodWeights A l) {ws : List Visit}
    {st : Store} (h : After A P (Store.start l) ws st) (hws : ∀ w ∈ ws, ∃ u, w.obs.weight = .fin u ∧ ObsWeight A u) (g : Idx) :
    ∃ W, ((st.cont g).getD freshVoxel).weight = .fin W ∧ VoxelWeight A W := by
  obtain ⟨v, hv, h1, h2⟩ := h.voxel g
  have h0 : ∃ W, (((Store.start l).cont g).getD freshVoxel).weight = .fin W ∧ VoxelWeight A W := by
    rw [Store.start_cont]
    cases hc : content l g with
    | none => exact ⟨0, rfl, voxelWeight_zero A⟩
    | some x => exact hl g x hc
  have hW := hs.integrate _ (fun o ho => by
    obtain ⟨w, hw, rfl⟩ := mem_obsOf ho
    exact hws w hw) h0 hv
  by_cases ht : Touched (Store.start l).layer.cfg.vps ws (blockOf (Store.start l).layer.cfg.vps g)
  · rw [h1 ht]; exact hW
  · rw [h2 ht]; exact h0

/-- Without failing jobs, and with finite non-negative weights, no run ever fails. -/
theorem no_fault {A : Arith} {P : Params} {n k : ℕ} {l : VLayer (TsdfVoxel Fl)} (hs : Sane A P.tsdf l.cfg.voxelSize) (wf : WellFormed l) (hl : GoodWeights A l)
    (hk : k < 31) (hside : l.cfg.vps = 2 ^ k) {todo : List Job} {queue : ℕ → List Job}
    (hj : ∀ j ∈ todo, ∃ vs, j = .ok vs) (hq : ∀ t < n, ∀ j ∈ queue t, ∃ vs, j = .ok vs)
    (hr : InReach (visitsOf todo ++ (List.range n).flatMap fun t => visitsOf (queue t)))
    (hw : ∀ w ∈ visitsOf todo ++ (List.range n).flatMap fun t => visitsOf (queue t), ∃ u, w.obs.weight = .fin u ∧ ObsWeight A u)
    {r : Outcome (VLayer (TsdfVoxel Fl))} (h : Parallel A P n l todo queue r) : ∃ l', r = .ok l' := by
  have hopen : Pool.open n { store := Store.start l, todo := todo, queue := queue, pending := fun _ => [] } =
      visitsOf todo ++ (List.range n).flatMap fun t => visitsOf (queue t) := by simp [Pool.open]
  cases h with
  | done hrun hdone =>
    obtain ⟨ws, haf, -⟩ := pool_runs hk (Store.start_inv wf) hside (hopen ▸ hr) hrun
    obtain ⟨l', h1, -⟩ := merge_eq haf.inv
    exact ⟨l', h1⟩
  | fault hrun hf =>
    exfalso
    rename_i s
    obtain ⟨ws, haf, hperm⟩ := pool_runs hk (Store.start_inv wf) hside (hopen ▸ hr) hrun
    rw [hopen] at hperm
    have hback : (∀ j ∈ s.todo, ∃ vs, j = .ok vs) ∧ ∀ t < n, ∀ j ∈ s.queue t, ∃ vs, j = .ok vs := by
      clear hf haf hperm
      induction hrun with
      | refl => exact ⟨hj, hq⟩
      | step hrun hact ih =>
        obtain ⟨ih1, ih2⟩ := ih
        cases hact with
        | take t vs rest ht hp htodo =>
          exact ⟨fun j h => ih1 j (by rw [htodo]; exact List.mem_cons_of_mem _ h), ih2⟩
        | own t vs rest ht hp hq' =>
          refine ⟨ih1, fun u hu j h => ?_⟩
          by_cases hut : u = t
          · subst hut
            simp only [Function.update_self] at h
            exact ih2 u hu j (by rw [hq']; exact List.mem_cons_of_mem _ h)
          · simp only [Function.update_of_ne hut] at h
            exact ih2 u hu j h
        | visit t w ws st ht hp hv => exact ⟨ih1, ih2⟩
    have hvisit : ∀ t < n, ∀ w ws', s.pending t = w :: ws' → ∃ st, visit A P s.store w = .ok st := by
      intro t ht w ws' hp
      have hmem : w ∈ visitsOf todo ++ (List.range n).flatMap fun t => visitsOf (queue t) := by
        refine hperm.mem_iff.1 (List.mem_append_right _ ?_)
        unfold Pool.open
        refine List.mem_append_right _ (List.mem_flatMap.2 ⟨t, List.mem_range.2 ht, ?_⟩)
        rw [hp]; simp
      obtain ⟨f, hf, -⟩ := visit_eq A P haf.inv hk (haf.cfg ▸ hside) (hr w hmem)
      have hW := haf.weights hs hl (fun w hw' => hw w (hperm.mem_iff.1 (List.mem_append_left _ hw'))) w.g
      have hs' : Sane A P.tsdf s.store.layer.cfg.voxelSize := by rw [haf.cfg]; exact hs
      obtain ⟨v', e1, -⟩ := hs'.update (hw w hmem) hW
      exact ⟨f v', by rw [hf, e1]; rfl⟩
    cases hf with
    | takeFatal t rest ht hp h => obtain ⟨vs, e⟩ := hback.1 _ (by rw [h]; exact List.mem_cons_self); cases e
    | takeUb t rest ht hp h => obtain ⟨vs, e⟩ := hback.1 _ (by rw [h]; exact List.mem_cons_self); cases e
    | ownFatal t rest ht hp h => obtain ⟨vs, e⟩ := hback.2 t ht _ (by rw [h]; exact List.mem_cons_self); cases e
    | ownUb t rest ht hp h => obtain ⟨vs, e⟩ := hback.2 t ht _ (by rw [h]; exact List.mem_cons_self); cases e
    | visitFatal t w ws' ht hp h => obtain ⟨st, e⟩ := hvisit t ht w ws' hp; rw [e] at h; cases h
    | visitUb t w ws' ht hp h => obtain ⟨st, e⟩ := hvisit t ht w ws' hp; rw [e] at h; cases h

/-! ### Progress -/

/-- How much is left to do. -/
def Pool.work (n : ℕ) (s : Pool) : ℕ :=
  (s.open n).length + s.todo.length + ((List.range n).map fun t => (s.queue t).length).sum

theorem sum_update {ts : List ℕ} (hnd : ts.Nodup) {t : ℕ} (ht : t ∈ ts) {q : ℕ → List Job} {j : Job} {rest : List Job} (hq : q t = j :: rest) :
    (ts.map fun u => (q u).length).sum = (ts.map fun u => (Function.update q t rest u).length).sum + 1 := by
  induction ts with
  | nil => cases ht
  | cons a ts ih =>
    simp only [List.nodup_cons] at hnd
    simp only [List.map_cons, List.sum_cons]
    by_cases hat : a = t
    · subst hat
      have : (ts.map fun u => (Function.update q a rest u).length) = ts.map fun u => (q u).length := by
        refine List.map_congr_left fun b hb => ?_
        rw [Function.update_of_ne]
        rintro rfl
        exact hnd.1 hb
      rw [this, Function.update_self, hq]
      simp only [List.length_cons]
      omega
    · rw [Function.update_of_ne hat, ih hnd.2 (by
        rcases List.mem_cons.1 ht with h | h
        · exact absurd h.symm hat
        · exact h)]
      omega

theorem act_work {A : Arith} {P : Params} {n : ℕ} {s s' : Pool} (h : Act A P n s s') : s'.work n < s.work n := by
  have hnd := List.nodup_range (n := n)
  have hlen : ∀ f : ℕ → List Visit, ((List.range n).flatMap f).length = ((List.range n).map fun t => (f t).length).sum := by
    intro f; rw [List.length_flatMap]
  cases h with
  | take t vs rest ht hp htodo =>
    have key := flatMap_update hnd (List.mem_range.2 ht)
      (Function.update (fun u => s.pending u ++ visitsOf (s.queue u)) t (vs ++ visitsOf (s.queue t)))
      (s.pending t ++ visitsOf (s.queue t)) vs (by rw [Function.update_self, hp]; exact List.Perm.refl _)
    rw [Function.update_idem] at key
    have e2 : Function.update (fun u => s.pending u ++ visitsOf (s.queue u)) t (s.pending t ++ visitsOf (s.queue t)) =
        fun u => s.pending u ++ visitsOf (s.queue u) := Function.update_eq_self t _
    rw [e2] at key
    have e : (fun u => Function.update s.pending t vs u ++ visitsOf (s.queue u)) =
        Function.update (fun u => s.pending u ++ visitsOf (s.queue u)) t (vs ++ visitsOf (s.queue t)) := by
      funext u
      by_cases hu : u = t
      · subst hu; simp
      · simp [Function.update_of_ne hu]
    have hl := key.length_eq
    rw [← e, List.length_append] at hl
    unfold Pool.work Pool.open
    simp only [List.length_append]
    rw [hl, htodo]
    have : (visitsOf (Outcome.ok vs :: rest)).length = vs.length + (visitsOf rest).length := by
      rw [visitsOf_cons]; simp [visitsOf]
    rw [this]
    simp only [List.length_cons]
    omega
  | own t vs rest ht hp hq =>
    have e : (fun u => Function.update s.pending t vs u ++ visitsOf (Function.update s.queue t rest u)) =
        fun u => s.pending u ++ visitsOf (s.queue u) := by
      funext u
      by_cases hu : u = t
      · subst hu
        simp only [Function.update_self]
        rw [hp, hq, visitsOf_cons]
        simp [visitsOf]
      · simp [Function.update_of_ne hu]
    unfold Pool.work Pool.open
    simp only [List.length_append]
    rw [e, sum_update hnd (List.mem_range.2 ht) hq]
    omega
  | visit t w vs st ht hp hv =>
    have key := flatMap_update hnd (List.mem_range.2 ht) (fun u => s.pending u ++ visitsOf (s.queue u))
      (vs ++ visitsOf (s.queue t)) [w] (by simp [hp])
    have e : (fun u => Function.update s.pending t vs u ++ visitsOf (s.queue u)) =
        Function.update (fun u => s.pending u ++ visitsOf (s.queue u)) t (vs ++ visitsOf (s.queue t)) := by
      funext u
      by_cases hu : u = t
      · subst hu; simp
      · simp [Function.update_of_ne hu]
    have hl := key.length_eq
    rw [← e, List.length_append] at hl
    unfold Pool.work Pool.open
    simp only [List.length_append]
    rw [hl]
    simp only [List.length_cons, List.length_nil]
    omega

/-- As long as a worker is busy or work is left, some worker can act (or fails). -/
theorem progress {A : Arith} {P : Params} {n : ℕ} (hn : 0 < n) (s : Pool) (h : ¬ s.Done n) :
    (∃ s', Act A P n s s') ∨ ∃ r, Fault A P n s r := by
  by_cases hp : ∃ t < n, s.pending t ≠ []
  · obtain ⟨t, ht, hp⟩ := hp
    obtain ⟨w, ws, hw⟩ := List.exists_cons_of_ne_nil hp
    cases hv : visit A P s.store w with
    | ok st => exact Or.inl ⟨_, Act.visit t w ws st ht hw hv⟩
    | fatal => exact Or.inr ⟨_, Fault.visitFatal t w ws ht hw hv⟩
    | ub => exact Or.inr ⟨_, Fault.visitUb t w ws ht hw hv⟩
  · have hp' : ∀ t < n, s.pending t = [] := fun t ht => by
      by_contra hc; exact hp ⟨t, ht, hc⟩
    by_cases hq : ∃ t < n, s.queue t ≠ []
    · obtain ⟨t, ht, hq⟩ := hq
      obtain ⟨j, js, hj⟩ := List.exists_cons_of_ne_nil hq
      cases j with
      | ok vs => exact Or.inl ⟨_, Act.own t vs js ht (hp' t ht) hj⟩
      | fatal => exact Or.inr ⟨_, Fault.ownFatal t js ht (hp' t ht) hj⟩
      | ub => exact Or.inr ⟨_, Fault.ownUb t js ht (hp' t ht) hj⟩
    · have hq' : ∀ t < n, s.queue t = [] := fun t ht => by
        by_contra hc; exact hq ⟨t, ht, hc⟩
      have htodo : s.todo ≠ [] := fun e => h ⟨e, fun t ht => ⟨hq' t ht, hp' t ht⟩⟩
      obtain ⟨j, js, hj⟩ := List.exists_cons_of_ne_nil htodo
      cases j with
      | ok vs => exact Or.inl ⟨_, Act.take 0 vs js hn (hp' 0 hn) hj⟩
      | fatal => exact Or.inr ⟨_, Fault.takeFatal 0 js hn (hp' 0 hn) hj⟩
      | ub => exact Or.inr ⟨_, Fault.takeUb 0 js hn (hp' 0 hn) hj⟩

/-- Every run can be continued until all workers are done or one of them fails. -/
theorem completes {A : Arith} {P : Params} {n : ℕ} (hn : 0 < n) {s₀ : Pool} : ∀ (m : ℕ) (s : Pool), s.work n ≤ m → Runs A P n s₀ s →
    ∃ s', Runs A P n s₀ s' ∧ (s'.Done n ∨ ∃ r, Fault A P n s' r) := by
  intro m
  induction m with
  | zero =>
    intro s hs hr
    by_cases hd : s.Done n
    · exact ⟨s, hr, Or.inl hd⟩
    · rcases progress (A := A) (P := P) hn s hd with ⟨s', ha⟩ | hf
      · have := act_work ha; omega
      · exact ⟨s, hr, Or.inr hf⟩
  | succ m ih =>
    intro s hs hr
    by_cases hd : s.Done n
    · exact ⟨s, hr, Or.inl hd⟩
    · rcases progress (A := A) (P := P) hn s hd with ⟨s', ha⟩ | hf
      · have := act_work ha
        exact ih s' (by omega) (hr.step ha)
      · exact ⟨s, hr, Or.inr hf⟩

theorem parallel_exists (A : Arith) (P : Params) {n : ℕ} (hn : 0 < n) (l : VLayer (TsdfVoxel Fl)) (todo : List Job) (queue : ℕ → List Job) :
    ∃ r, Parallel A P n l todo queue r := by
  obtain ⟨s, hr, hd | ⟨r, hf⟩⟩ := completes (A := A) (P := P) hn _ _ le_rfl
    (Runs.refl (s := { store := Store.start l, todo := todo, queue := queue, pending := fun _ => [] }))
  · exact ⟨_, Parallel.done hr hd⟩
  · exact ⟨_, Parallel.fault hr hf⟩

/-! ### Particular executions -/

/-- A worker makes all visits of its current job without interruption. -/
theorem visits_run {A : Arith} {P : Params} {n t : ℕ} (ht : t < n) {s₀ : Pool} : ∀ (ws : List Visit) (s : Pool) (st : Store),
    s.pending t = ws → ws.foldlM (visit A P) s.store = .ok st → Runs A P n s₀ s →
    Runs A P n s₀ { s with store := st, pending := Function.update s.pending t [] } := by
  intro ws
  induction ws with
  | nil =>
    intro s st hp hst hr
    have e : s.store = st := Outcome.ok.inj hst
    rw [← hp, Function.update_eq_self, ← e]
    exact hr
  | cons w ws ih =>
    intro s st hp hst hr
    rw [List.foldlM_cons, Outcome.bind_eq_ok] at hst
    obtain ⟨st₁, h1, h2⟩ := hst
    have k := ih { s with store := st₁, pending := Function.update s.pending t ws } st (Function.update_self ..) h2
      (hr.step (Act.visit t w ws st₁ ht hp h1))
    rw [show ({ s with store := st₁, pending := Function.update s.pending t ws } : Pool).pending =
      Function.update s.pending t ws from rfl, Function.update_idem] at k
    exact k

/-- One worker takes and finishes one job after the other. -/
theorem sequential_run {A : Arith} {P : Params} {n : ℕ} (hn : 0 < n) {s₀ : Pool} : ∀ (jobs : List (List Visit)) (s : Pool) (st : Store),
    s.todo = jobs.map .ok → s.pending 0 = [] → jobs.flatten.foldlM (visit A P) s.store = .ok st → Runs A P n s₀ s →
    Runs A P n s₀ { s with store := st, todo := [] } := by
  intro jobs
  induction jobs with
  | nil =>
    intro s st ht hp hst hr
    have e : s.store = st := Outcome.ok.inj hst
    have e2 : s.todo = [] := ht
    rw [← e, ← e2]
    exact hr
  | cons j jobs ih =>
    intro s st ht hp hst hr
    rw [List.flatten_cons, List.foldlM_append, Outcome.bind_eq_ok] at hst
    obtain ⟨st₁, h1, h2⟩ := hst
    have k1 := hr.step (Act.take 0 j (jobs.map .ok) hn hp (by rw [ht]; rfl))
    have k2 := visits_run hn j { s with todo := jobs.map .ok, pending := Function.update s.pending 0 j } st₁
      rfl h1 k1
    rw [show ({ s with todo := jobs.map .ok, pending := Function.update s.pending 0 j } : Pool).pending =
      Function.update s.pending 0 j from rfl, Function.update_idem, ← hp, Function.update_eq_self] at k2
    exact ih { s with store := st₁, todo := jobs.map .ok } st rfl hp h2 k2

theorem sequential {A : Arith} {P : Params} {n : ℕ} (hn : 0 < n) (l : VLayer (TsdfVoxel Fl)) (jobs : List (List Visit)) {st : Store}
    (h : jobs.flatten.foldlM (visit A P) (Store.start l) = .ok st) :
    Parallel A P n l (jobs.map .ok) (fun _ => []) st.merge :=
  Parallel.done (sequential_run hn jobs { store := Store.start l, todo := jobs.map .ok, queue := fun _ => [], pending := fun _ => [] }
    st rfl rfl h Runs.refl) ⟨rfl, fun _ _ => ⟨rfl, rfl⟩⟩

/-- Two workers take one of two jobs each, and the second worker finishes first. -/
theorem second_first {A : Arith} {P : Params} {n : ℕ} (hn : 1 < n) (l : VLayer (TsdfVoxel Fl)) (a b : List Visit) {st : Store}
    (h : (b ++ a).foldlM (visit A P) (Store.start l) = .ok st) :
    Parallel A P n l [.ok a, .ok b] (fun _ => []) st.merge := by
  rw [List.foldlM_append, Outcome.bind_eq_ok] at h
  obtain ⟨st₁, h1, h2⟩ := h
  have k1 := (Runs.refl (A := A) (P := P) (n := n)
    (s := { store := Store.start l, todo := [.ok a, .ok b], queue := fun _ => [], pending := fun _ => [] })).step
    (Act.take 0 a [.ok b] (by omega) rfl rfl)
  have k2 := k1.step (Act.take 1 b [] hn rfl rfl)
  have k3 := visits_run hn b _ st₁ rfl h1 k2
  have k4 := visits_run (t := 0) (by omega) a _ st rfl h2 k3
  refine Parallel.done k4 ⟨rfl, fun t _ => ⟨rfl, ?_⟩⟩
  show Function.update (Function.update (Function.update (Function.update (fun _ => []) 0 a) 1 b) 1 []) 0 [] t = []
  by_cases h0 : t = 0
  · subst h0; simp
  · by_cases h1 : t = 1
    · subst h1; simp
    · simp [Function.update_of_ne h0, Function.update_of_ne h1]

/-- Worker 0 of a pool with separate queues does its share, all other shares being empty. -/
theorem own_sequential_run {A : Arith} {P : Params} {n : ℕ} (hn : 0 < n) {s₀ : Pool} : ∀ (jobs : List (List Visit)) (s : Pool) (st : Store),
    s.queue 0 = jobs.map .ok → s.pending 0 = [] → jobs.flatten.foldlM (visit A P) s.store = .ok st → Runs A P n s₀ s →
    Runs A P n s₀ { s with store := st, queue := Function.update s.queue 0 [] } := by
  intro jobs
  induction jobs with
  | nil =>
    intro s st ht hp hst hr
    have e : s.store = st := Outcome.ok.inj hst
    have e2 : s.queue 0 = [] := ht
    rw [← e, ← e2, Function.update_eq_self]
    exact hr
  | cons j jobs ih =>
    intro s st ht hp hst hr
    rw [List.flatten_cons, List.foldlM_append, Outcome.bind_eq_ok] at hst
    obtain ⟨st₁, h1, h2⟩ := hst
    have k1 := hr.step (Act.own 0 j (jobs.map .ok) hn hp (by rw [ht]; rfl))
    have k2 := visits_run hn j { s with queue := Function.update s.queue 0 (jobs.map .ok), pending := Function.update s.pending 0 j } st₁
      rfl h1 k1
    rw [show ({ s with queue := Function.update s.queue 0 (jobs.map .ok), pending := Function.update s.pending 0 j } : Pool).pending =
      Function.update s.pending 0 j from rfl, Function.update_idem, ← hp, Function.update_eq_self] at k2
    have k3 := ih { s with store := st₁, queue := Function.update s.queue 0 (jobs.map .ok) } st rfl hp h2 k2
    rw [show ({ s with store := st₁, queue := Function.update s.queue 0 (jobs.map .ok) } : Pool).queue =
      Function.update s.queue 0 (jobs.map .ok) from rfl, Function.update_idem] at k3
    exact k3

theorem own_sequential {A : Arith} {P : Params} (l : VLayer (TsdfVoxel Fl)) (jobs : List (List Visit)) {queue : ℕ → List Job}
    (hq : queue 0 = jobs.map .ok) {st : Store} (h : jobs.flatten.foldlM (visit A P) (Store.start l) = .ok st) :
    Parallel A P 1 l [] queue st.merge :=
  Parallel.done (own_sequential_run Nat.one_pos jobs { store := Store.start l, todo := [], queue := queue, pending := fun _ => [] }
    st hq rfl h Runs.refl) ⟨rfl, fun t ht => by
      have : t = 0 := by omega
      subst this
      exact ⟨rfl, rfl⟩⟩

end Vox.TsdfScan
