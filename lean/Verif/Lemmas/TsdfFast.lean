/-
Lemmas for the fast TSDF integrator.
-/
import Verif.Lemmas.TsdfPool

namespace Vox.TsdfScan

open Layer Grid Tsdf Ray Spec

theorem present_store {h h' : ApproxHash.HSet} {a b : ℕ} (hs : ApproxHash.store maskedBits fullReset h a = .ok h') (hp : Present h' b) :
    b = a ∨ Present h b := by
  unfold ApproxHash.store at hs
  obtain ⟨-, h1, h2⟩ := Outcome.bind_eq_ok.1 hs
  obtain rfl := Outcome.ok.inj h2
  unfold Present ApproxHash.present at hp ⊢
  obtain ⟨u, h3, h4⟩ := Outcome.bind_eq_ok.1 hp
  have h5 := Outcome.ok.inj h4
  by_cases he : ApproxHash.slotOf maskedBits h b = ApproxHash.slotOf maskedBits h a
  · left
    replace h5 : ((if ApproxHash.slotOf maskedBits h b = ApproxHash.slotOf maskedBits h a then a
      else h.slots (ApproxHash.slotOf maskedBits h b)) == b) = true := h5
    rw [if_pos he] at h5
    exact (eq_of_beq h5).symm
  · right
    replace h5 : ((if ApproxHash.slotOf maskedBits h b = ApproxHash.slotOf maskedBits h a then a
      else h.slots (ApproxHash.slotOf maskedBits h b)) == b) = true := h5
    rw [if_neg he] at h5
    exact Outcome.bind_eq_ok.2 ⟨u, h3, congrArg Outcome.ok h5⟩

/-- The entries of the points that were taken up. -/
def entries (n : ℕ) (fin : List Entry) (cur : ℕ → List Entry) : List Entry := fin ++ (List.range n).flatMap cur

theorem entries_update {n t : ℕ} (ht : t < n) (fin : List Entry) (cur : ℕ → List Entry) : ∃ rest,
    (entries n fin cur).Perm (cur t ++ rest) ∧ ∀ x new, (entries n (new ++ fin) (Function.update cur t x)).Perm (new ++ x ++ rest) := by
  refine ⟨fin ++ (List.range n).flatMap (Function.update cur t []), ?_, fun x new => ?_⟩
  · have h := flatMap_update List.nodup_range (List.mem_range.2 ht) cur [] (cur t) (by simp)
    unfold entries
    refine (h.append_left fin).trans ?_
    rw [← List.append_assoc, ← List.append_assoc]
    exact List.perm_append_comm.append_right _
  · have h := flatMap_update List.nodup_range (List.mem_range.2 ht) (Function.update cur t x) [] x (by simp)
    rw [Function.update_idem] at h
    unfold entries
    refine (h.append_left _).trans ?_
    rw [List.append_assoc, List.append_assoc]
    refine List.Perm.append_left _ ?_
    rw [← List.append_assoc, ← List.append_assoc]
    exact List.perm_append_comm.append_right _

/-- What a worker has done so far for its current point. -/
def CurOk (P : Params) (known : ℕ → Prop) : Stage → List Entry → Prop
  | .idle, c => c = []
  | .left, c => c = []
  | .starting g ws, c => c = [⟨.ok (some (g, ws)), [], false⟩]
  | .casting ws k, c => ∃ g us, c = [⟨.ok (some (g, us ++ ws)), us, true⟩] ∧ k ≤ P.maxCollisions ∧
      ∃ pre run, us = pre ++ run ∧ (run.length : ℤ) = k ∧ ∀ x ∈ run, known (ApproxHash.longIndexHash x.g)
  | .marking w ws, c => ∃ g us, c = [⟨.ok (some (g, us ++ w :: ws)), us, true⟩]
  | .updating w ws k, c => ∃ g us, c = [⟨.ok (some (g, us ++ w :: ws)), us, true⟩] ∧ k ≤ P.maxCollisions ∧
      ∃ pre run, us ++ [w] = pre ++ run ∧ (run.length : ℤ) = k ∧ ∀ x ∈ run, known (ApproxHash.longIndexHash x.g)

theorem CurOk.mono {P : Params} {p q : ℕ → Prop} (h : ∀ x, p x → q x) : ∀ {st : Stage} {c : List Entry}, CurOk P p st c → CurOk P q st c := by
  intro st c hc
  cases st with
  | idle => exact hc
  | left => exact hc
  | starting g ws => exact hc
  | marking w ws => exact hc
  | casting ws k =>
    obtain ⟨g, us, h1, h2, pre, run, h3, h4, h5⟩ := hc
    exact ⟨g, us, h1, h2, pre, run, h3, h4, fun x hx => h _ (h5 x hx)⟩
  | updating w ws k =>
    obtain ⟨g, us, h1, h2, pre, run, h3, h4, h5⟩ := hc
    exact ⟨g, us, h1, h2, pre, run, h3, h4, fun x hx => h _ (h5 x hx)⟩

theorem _root_.Vox.Spec.Justified.mono {P : Params} {p q : ℕ → Prop} (h : ∀ x, p x → q x) {e : Entry} (he : Justified P p e) : Justified P q e := by
  rcases he with he | ⟨h1, g, ws, h2, h3 | ⟨pre, run, w, rest, h3, h4, h5, h6⟩⟩
  · exact Or.inl he
  · exact Or.inr ⟨h1, g, ws, h2, Or.inl h3⟩
  · exact Or.inr ⟨h1, g, ws, h2, Or.inr ⟨pre, run, w, rest, h3, h4, h5, fun x hx => h _ (h6 x hx)⟩⟩

/-- The reasons for which a point is not cast. -/
def Reason (n : ℕ) (s : FastPool) (known : ℕ → Prop) (e : Entry) : Prop :=
  e.cast = false → e.job = .ok none ∨ (∃ g ws, e.job = .ok (some (g, ws)) ∧ known (ApproxHash.longIndexHash g)) ∨ ∃ t < n, s.stage t = .left

/-- The invariant of the workers of the fast integrator. -/
structure FInv (A : Arith) (P : Params) (n : ℕ) (s₀ s : FastPool) (fin : List Entry) (cur : ℕ → List Entry) (starts marks : List ℕ) : Prop where
  jobs : ((entries n fin cur).map (·.job) ++ s.todo).Perm s₀.todo
  made : ∃ ws, After A P s₀.store ws s.store ∧ ws.Perm ((entries n fin cur).flatMap (·.made))
  fin_ok : ∀ e ∈ fin, Justified P (fun h => Present s₀.seen h ∨ h ∈ marks) e ∧ Reason n s (fun h => Present s₀.start h ∨ h ∈ starts) e
  cur_ok : ∀ t < n, CurOk P (fun h => Present s₀.seen h ∨ h ∈ marks) (s.stage t) (cur t)
  start_ok : ∀ h, Present s.start h → Present s₀.start h ∨ h ∈ starts
  starts_ok : ∀ h ∈ starts, ∃ e ∈ entries n fin cur, e.cast = true ∧ ∃ g ws, e.job = .ok (some (g, ws)) ∧ ApproxHash.longIndexHash g = h
  seen_ok : ∀ h, Present s.seen h → Present s₀.seen h ∨ h ∈ marks
  marks_ok : ∀ h ∈ marks, (∃ e ∈ entries n fin cur, ∃ y ∈ e.made, ApproxHash.longIndexHash y.g = h) ∨
    ∃ t < n, ∃ w ws k, s.stage t = .updating w ws k ∧ ApproxHash.longIndexHash w.g = h

/-- An action of worker `t` keeps the invariant. -/
theorem FInv.change {A : Arith} {P : Params} {n : ℕ} {s₀ s s' : FastPool} {fin : List Entry} {cur : ℕ → List Entry} {starts marks : List ℕ}
    (inv : FInv A P n s₀ s fin cur starts marks) {t : ℕ} (ht : t < n) (new x : List Entry) (ns nm : List ℕ) {σ : Stage}
    (hjobs : ((new ++ x).map (·.job) ++ s'.todo).Perm ((cur t).map (·.job) ++ s.todo))
    (hmade : ∀ ws, After A P s₀.store ws s.store → ∃ us, After A P s₀.store (ws ++ us) s'.store ∧
      ((new ++ x).flatMap (·.made)).Perm ((cur t).flatMap (·.made) ++ us))
    (hfin : ∀ e ∈ new, Justified P (fun h => Present s₀.seen h ∨ h ∈ nm ++ marks) e ∧
      Reason n s' (fun h => Present s₀.start h ∨ h ∈ ns ++ starts) e)
    (hstage : s'.stage = Function.update s.stage t σ) (hleft : s.stage t ≠ .left)
    (hcur : CurOk P (fun h => Present s₀.seen h ∨ h ∈ nm ++ marks) σ x)
    (hstart : ∀ h, Present s'.start h → Present s.start h ∨ h ∈ ns)
    (hns : ∀ h ∈ ns, ∃ e ∈ new ++ x, e.cast = true ∧ ∃ g ws, e.job = .ok (some (g, ws)) ∧ ApproxHash.longIndexHash g = h)
    (hcast : ∀ e ∈ cur t, e.cast = true → ∃ e' ∈ new ++ x, e'.cast = true ∧ e'.job = e.job)
    (hseen : ∀ h, Present s'.seen h → Present s.seen h ∨ h ∈ nm)
    (hnm : ∀ h ∈ nm, ∃ w ws k, σ = .updating w ws k ∧ ApproxHash.longIndexHash w.g = h)
    (hupd : ∀ w ws k, s.stage t = .updating w ws k → ∃ e ∈ new ++ x, w ∈ e.made) :
    FInv A P n s₀ s' (new ++ fin) (Function.update cur t x) (ns ++ starts) (nm ++ marks) := by
  obtain ⟨rest, hr1, hr2⟩ := entries_update ht fin cur
  have hr2 := hr2 x new
  have hst : ∀ u, u ≠ t → s'.stage u = s.stage u := fun u hu => by rw [hstage, Function.update_of_ne hu]
  have hlate : (∃ u < n, s.stage u = .left) → ∃ u < n, s'.stage u = .left := by
    rintro ⟨u, hu, hl⟩
    refine ⟨u, hu, ?_⟩
    rw [hst u (by rintro rfl; exact hleft hl)]
    exact hl
  have hsub : ∀ e ∈ (cur t).flatMap (·.made), e ∈ (new ++ x).flatMap (·.made) := by
    obtain ⟨ws, h1, -⟩ := inv.made
    obtain ⟨us, -, h3⟩ := hmade ws h1
    intro e he
    exact h3.mem_iff.2 (List.mem_append_left _ he)
  constructor
  · refine ((hr2.map _).append_right _).trans ?_
    rw [List.map_append, List.append_assoc]
    have h1 : ((new ++ x).map (·.job) ++ (rest.map (·.job) ++ s'.todo)).Perm ((cur t).map (·.job) ++ (rest.map (·.job) ++ s.todo)) := by
      refine (List.perm_append_comm_assoc _ _ _).trans ((hjobs.append_left _).trans (List.perm_append_comm_assoc _ _ _))
    refine h1.trans ?_
    refine List.Perm.trans ?_ inv.jobs
    rw [← List.append_assoc, ← List.map_append]
    exact ((hr1.map _).append_right _).symm
  · obtain ⟨ws, h1, h2⟩ := inv.made
    obtain ⟨us, h3, h4⟩ := hmade ws h1
    refine ⟨ws ++ us, h3, ?_⟩
    have e1 : ((entries n fin cur).flatMap (·.made)).Perm ((cur t).flatMap (·.made) ++ rest.flatMap (·.made)) := by
      rw [← List.flatMap_append]
      exact hr1.flatMap_right _
    have e2 : ((entries n (new ++ fin) (Function.update cur t x)).flatMap (·.made)).Perm ((new ++ x).flatMap (·.made) ++ rest.flatMap (·.made)) := by
      rw [← List.flatMap_append]
      exact hr2.flatMap_right _
    refine ((h2.trans e1).append_right us).trans (List.Perm.trans ?_ e2.symm)
    rw [List.append_assoc]
    refine ((List.perm_append_comm).append_left _).trans ?_
    rw [← List.append_assoc]
    exact (h4.append_right _).symm
  · intro e he
    rcases List.mem_append.1 he with he | he
    · exact hfin e he
    · obtain ⟨h1, h2⟩ := inv.fin_ok e he
      refine ⟨h1.mono fun y hy => hy.imp_right (List.mem_append_right _), fun hc => ?_⟩
      rcases h2 hc with h | ⟨g, ws, h3, h4⟩ | h
      · exact Or.inl h
      · exact Or.inr (Or.inl ⟨g, ws, h3, h4.imp_right (List.mem_append_right _)⟩)
      · exact Or.inr (Or.inr (hlate h))
  · intro u hu
    by_cases hut : u = t
    · subst hut
      rw [hstage, Function.update_self, Function.update_self]
      exact hcur
    · rw [hst u hut, Function.update_of_ne hut]
      exact (inv.cur_ok u hu).mono fun y hy => hy.imp_right (List.mem_append_right _)
  · intro h hp
    rcases hstart h hp with h1 | h1
    · exact (inv.start_ok h h1).imp_right (List.mem_append_right _)
    · exact Or.inr (List.mem_append_left _ h1)
  · intro h hh
    rcases List.mem_append.1 hh with hh | hh
    · obtain ⟨e, he, h1⟩ := hns h hh
      exact ⟨e, hr2.mem_iff.2 (List.mem_append_left _ he), h1⟩
    · obtain ⟨e, he, h1, g, ws, h2, h3⟩ := inv.starts_ok h hh
      rcases List.mem_append.1 (hr1.mem_iff.1 he) with he | he
      · obtain ⟨e', he', h4, h5⟩ := hcast e he h1
        exact ⟨e', hr2.mem_iff.2 (List.mem_append_left _ he'), h4, g, ws, h5.trans h2, h3⟩
      · exact ⟨e, hr2.mem_iff.2 (List.mem_append_right _ he), h1, g, ws, h2, h3⟩
  · intro h hp
    rcases hseen h hp with h1 | h1
    · exact (inv.seen_ok h h1).imp_right (List.mem_append_right _)
    · exact Or.inr (List.mem_append_left _ h1)
  · intro h hh
    rcases List.mem_append.1 hh with hh | hh
    · obtain ⟨w, ws, k, h1, h2⟩ := hnm h hh
      exact Or.inr ⟨t, ht, w, ws, k, by rw [hstage, Function.update_self]; exact h1, h2⟩
    · rcases inv.marks_ok h hh with ⟨e, he, y, hy, h1⟩ | ⟨u, hu, w, ws, k, h1, h2⟩
      · left
        rcases List.mem_append.1 (hr1.mem_iff.1 he) with he | he
        · obtain ⟨e', he', hy'⟩ := List.mem_flatMap.1 (hsub y (List.mem_flatMap.2 ⟨e, he, hy⟩))
          exact ⟨e', hr2.mem_iff.2 (List.mem_append_left _ he'), y, hy', h1⟩
        · exact ⟨e, hr2.mem_iff.2 (List.mem_append_right _ he), y, hy, h1⟩
      · by_cases hut : u = t
        · subst hut
          obtain ⟨e, he, hw⟩ := hupd w ws k h1
          exact Or.inl ⟨e, hr2.mem_iff.2 (List.mem_append_left _ he), w, hw, h2⟩
        · exact Or.inr ⟨u, hu, w, ws, k, by rw [hst u hut]; exact h1, h2⟩

theorem after_same {A : Arith} {P : Params} {s₀ : FastPool} {st : Store} {a b : List Visit} (h : a.Perm b) :
    ∀ ws, After A P s₀.store ws st → ∃ us, After A P s₀.store (ws ++ us) st ∧ a.Perm (b ++ us) :=
  fun ws hws => ⟨[], by simpa using hws, by simpa using h⟩

/-- Every reachable state satisfies the invariant. -/
theorem fast_runs {A : Arith} {P : Params} (hmax : 0 ≤ P.maxCollisions) {n k : ℕ} (hk : k < 31) {s₀ s : FastPool} (inv₀ : s₀.store.Inv)
    (hside : s₀.store.layer.cfg.vps = 2 ^ k) (hidle : ∀ t, s₀.stage t = .idle)
    (hr : ∀ g ws, .ok (some (g, ws)) ∈ s₀.todo → InReach ws) (h : FastRuns A P n s₀ s) :
    ∃ fin cur starts marks, FInv A P n s₀ s fin cur starts marks := by
  induction h with
  | refl =>
    refine ⟨[], fun _ => [], [], [], ?_⟩
    have he : entries n [] (fun _ => []) = [] := by simp [entries]
    constructor
    · rw [he]; exact List.Perm.refl _
    · exact ⟨[], After.refl A P inv₀, by rw [he]; exact List.Perm.refl _⟩
    · simp
    · intro t ht; rw [hidle t]; rfl
    · exact fun h hp => Or.inl hp
    · simp
    · exact fun h hp => Or.inl hp
    · simp
  | step hrun hact ih =>
    rename_i s s'
    obtain ⟨fin, cur, starts, marks, inv⟩ := ih
    cases hact with
    | reject t rest ht hst htodo =>
      have hc : cur t = [] := by have := inv.cur_ok t ht; rwa [hst] at this
      refine ⟨_, _, _, _, inv.change ht [⟨.ok none, [], false⟩] [] [] [] (σ := .idle) ?_ (after_same (by simp [hc])) ?_ ?_ (by simp [hst]) rfl
        (fun h hp => Or.inl hp) (by simp) (by simp [hc]) (fun h hp => Or.inl hp) (by simp) (by simp [hst])⟩
      · rw [hc, htodo]; exact List.Perm.refl _
      · intro e he
        obtain rfl := List.mem_singleton.1 he
        exact ⟨Or.inl ⟨rfl, rfl⟩, fun _ => Or.inl rfl⟩
      · rw [← hst, Function.update_eq_self]
    | known t g ws rest ht hst htodo hp =>
      have hc : cur t = [] := by have := inv.cur_ok t ht; rwa [hst] at this
      refine ⟨_, _, _, _, inv.change ht [⟨.ok (some (g, ws)), [], false⟩] [] [] [] (σ := .idle) ?_ (after_same (by simp [hc])) ?_ ?_ (by simp [hst]) rfl
        (fun h hp => Or.inl hp) (by simp) (by simp [hc]) (fun h hp => Or.inl hp) (by simp) (by simp [hst])⟩
      · rw [hc, htodo]; exact List.Perm.refl _
      · intro e he
        obtain rfl := List.mem_singleton.1 he
        exact ⟨Or.inl ⟨rfl, rfl⟩, fun _ => Or.inr (Or.inl ⟨g, ws, rfl, inv.start_ok _ hp⟩)⟩
      · rw [← hst, Function.update_eq_self]
    | start t g ws rest ht hst htodo hp =>
      have hc : cur t = [] := by have := inv.cur_ok t ht; rwa [hst] at this
      refine ⟨_, _, _, _, inv.change ht [] [⟨.ok (some (g, ws)), [], false⟩] [] [] (σ := .starting g ws) ?_ (after_same (by simp [hc])) (by simp) rfl
        (by simp [hst]) rfl
        (fun h hp => Or.inl hp) (by simp) (by simp [hc]) (fun h hp => Or.inl hp) (by simp) (by simp [hst])⟩
      rw [hc, htodo]; exact List.Perm.refl _
    | begin t g ws h ht hst hs =>
      have hc : cur t = [⟨.ok (some (g, ws)), [], false⟩] := by have := inv.cur_ok t ht; rwa [hst] at this
      refine ⟨_, _, _, _, inv.change ht [] [⟨.ok (some (g, ws)), [], true⟩] [ApproxHash.longIndexHash g] [] (σ := .casting ws 0)
        (by rw [hc]; exact List.Perm.refl _) (after_same (by simp [hc])) (by simp) rfl
        (by simp [hst]) ⟨g, [], rfl, hmax, [], [], rfl, rfl, by simp⟩
        (fun x hx => ?_) (by simp) (by simp [hc]) (fun h hp => Or.inl hp) (by simp) (by simp [hst])⟩
      rcases present_store hs hx with h1 | h1
      · exact Or.inr (by simp [h1])
      · exact Or.inl h1
    | hit t w ws k' ht hst hp =>
      have hc := inv.cur_ok t ht
      rw [hst] at hc
      obtain ⟨g, us, hc, h2, pre, run, h3, h4, h5⟩ := hc
      have hkn := inv.seen_ok _ hp
      by_cases hgt : k' + 1 > P.maxCollisions
      · have hσ : afterCheck P w ws (k' + 1) = .idle := if_pos hgt
        refine ⟨_, _, _, _, inv.change ht [⟨.ok (some (g, us ++ w :: ws)), us, true⟩] [] [] [] (σ := .idle)
          (by rw [hc]; exact List.Perm.refl _) (after_same (by simp [hc])) ?_ (by rw [hσ]) (by simp [hst]) rfl
          (fun h hp => Or.inl hp) (by simp) (by simp [hc]) (fun h hp => Or.inl hp) (by simp) (by simp [hst])⟩
        intro e he
        obtain rfl := List.mem_singleton.1 he
        refine ⟨Or.inr ⟨rfl, g, us ++ w :: ws, rfl, Or.inr ⟨pre, run, w, ws, by rw [h3], h3, by omega, ?_⟩⟩, fun h => by cases h⟩
        intro x hx
        rcases List.mem_append.1 hx with hx | hx
        · exact h5 x hx
        · obtain rfl := List.mem_singleton.1 hx
          exact hkn
      · have hσ : afterCheck P w ws (k' + 1) = .updating w ws (k' + 1) := if_neg hgt
        refine ⟨_, _, _, _, inv.change ht [] [⟨.ok (some (g, us ++ w :: ws)), us, true⟩] [] [] (σ := .updating w ws (k' + 1))
          (by rw [hc]; exact List.Perm.refl _) (after_same (by simp [hc])) (by simp) (by rw [hσ]) (by simp [hst])
          ⟨g, us, rfl, by omega, pre, run ++ [w], by rw [h3, List.append_assoc], by rw [← h4]; simp, ?_⟩
          (fun h hp => Or.inl hp) (by simp) (by simp [hc]) (fun h hp => Or.inl hp) (by simp) (by simp [hst])⟩
        intro x hx
        rcases List.mem_append.1 hx with hx | hx
        · exact h5 x hx
        · obtain rfl := List.mem_singleton.1 hx
          exact hkn
    | miss t w ws k' ht hst hp =>
      have hc := inv.cur_ok t ht
      rw [hst] at hc
      obtain ⟨g, us, hc, -⟩ := hc
      exact ⟨_, _, _, _, inv.change ht [] [⟨.ok (some (g, us ++ w :: ws)), us, true⟩] [] [] (σ := .marking w ws)
        (by rw [hc]; exact List.Perm.refl _) (after_same (by simp [hc])) (by simp) rfl
        (by simp [hst]) ⟨g, us, rfl⟩
        (fun h hp => Or.inl hp) (by simp) (by simp [hc]) (fun h hp => Or.inl hp) (by simp) (by simp [hst])⟩
    | mark t w ws h ht hst hs =>
      have hc := inv.cur_ok t ht
      rw [hst] at hc
      obtain ⟨g, us, hc⟩ := hc
      have hσ : afterCheck P w ws 0 = .updating w ws 0 := if_neg (by omega)
      refine ⟨_, _, _, _, inv.change ht [] [⟨.ok (some (g, us ++ w :: ws)), us, true⟩] [] [ApproxHash.longIndexHash w.g] (σ := .updating w ws 0)
        (by rw [hc]; exact List.Perm.refl _) (after_same (by simp [hc])) (by simp) (by rw [hσ])
        (by simp [hst]) ⟨g, us, rfl, hmax, us ++ [w], [], by simp, rfl, by simp⟩
        (fun h hp => Or.inl hp) (by simp) (by simp [hc]) (fun x hx => ?_) (by simp) (by simp [hst])⟩
      rcases present_store hs hx with h1 | h1
      · exact Or.inr (by simp [h1])
      · exact Or.inl h1
    | update t w ws k' st ht hst hv =>
      have hc := inv.cur_ok t ht
      rw [hst] at hc
      obtain ⟨g, us, hc, h2, pre, run, h3, h4, h5⟩ := hc
      have hmem : (.ok (some (g, us ++ w :: ws)) : FastJob) ∈ s₀.todo := by
        refine inv.jobs.mem_iff.1 (List.mem_append_left _ (List.mem_map.2 ⟨⟨.ok (some (g, us ++ w :: ws)), us, true⟩, ?_, rfl⟩))
        unfold entries
        exact List.mem_append_right _ (List.mem_flatMap.2 ⟨t, List.mem_range.2 ht, by rw [hc]; simp⟩)
      have hreach := hr g _ hmem w (by simp)
      refine ⟨_, _, _, _, inv.change ht [] [⟨.ok (some (g, (us ++ [w]) ++ ws)), us ++ [w], true⟩] [] [] (σ := .casting ws k')
        (by rw [hc]; simp) (fun vs hvs => ⟨[w], hvs.step hk hside hreach hv, by simp [hc]⟩) (by simp) rfl
        (by simp [hst]) ⟨g, us ++ [w], rfl, h2, pre, run, h3, h4, h5⟩
        (fun h hp => Or.inl hp) (by simp) (by simp [hc]) (fun h hp => Or.inl hp) (by simp) ?_⟩
      intro w' ws' k'' e
      rw [hst] at e
      injection e with e1 e2 e3
      subst e1
      exact ⟨⟨.ok (some (g, (us ++ [w]) ++ ws)), us ++ [w], true⟩, List.mem_singleton.2 rfl, by simp⟩
    | finish t k' ht hst =>
      have hc := inv.cur_ok t ht
      rw [hst] at hc
      obtain ⟨g, us, hc, -⟩ := hc
      refine ⟨_, _, _, _, inv.change ht [⟨.ok (some (g, us ++ [])), us, true⟩] [] [] [] (σ := .idle)
        (by rw [hc]; exact List.Perm.refl _) (after_same (by simp [hc])) ?_ rfl (by simp [hst]) rfl
        (fun h hp => Or.inl hp) (by simp) (by simp [hc]) (fun h hp => Or.inl hp) (by simp) (by simp [hst])⟩
      intro e he
      obtain rfl := List.mem_singleton.1 he
      exact ⟨Or.inr ⟨rfl, g, _, rfl, Or.inl (by simp)⟩, fun h => by cases h⟩
    | leave t j rest ht hst htodo =>
      have hc : cur t = [] := by have := inv.cur_ok t ht; rwa [hst] at this
      refine ⟨_, _, _, _, inv.change ht [⟨j, [], false⟩] [] [] [] (σ := .left) ?_ (after_same (by simp [hc])) ?_ rfl (by simp [hst]) rfl
        (fun h hp => Or.inl hp) (by simp) (by simp [hc]) (fun h hp => Or.inl hp) (by simp) (by simp [hst])⟩
      · rw [hc, htodo]; exact List.Perm.refl _
      · intro e he
        obtain rfl := List.mem_singleton.1 he
        exact ⟨Or.inl ⟨rfl, rfl⟩, fun _ => Or.inr (Or.inr ⟨t, ht, Function.update_self ..⟩)⟩

theorem fastJobs_perm {A : Arith} {P : Params} {s : ℚ} {V : View} {freespace : Bool} (cloud : List (Vec3 Fl × Color)) {is : List ℕ}
    (h : is.Perm (List.range cloud.length)) :
    (fastJobs A P s V freespace cloud is).Perm (cloud.map (fastPoint A P s V freespace)) := by
  refine (h.map _).trans ?_
  have := map_getElem? (fun o : Option (Vec3 Fl × Color) => match o with
    | some p => fastPoint A P s V freespace p
    | none => (Outcome.ub : FastJob)) cloud
  exact List.Perm.of_eq this

/-- The invariant when all workers are done. -/
theorem fast_done {A : Arith} {P : Params} (hmax : 0 ≤ P.maxCollisions) {n k : ℕ} (hk : k < 31) {s₀ s : FastPool} (inv₀ : s₀.store.Inv)
    (hside : s₀.store.layer.cfg.vps = 2 ^ k) (hidle : ∀ t, s₀.stage t = .idle)
    (hr : ∀ g ws, .ok (some (g, ws)) ∈ s₀.todo → InReach ws) (h : FastRuns A P n s₀ s) (hd : s.Done n) (hn : 0 < n) :
    ∃ es : List Entry, (es.map (·.job)).Perm s₀.todo ∧
      (∃ ws, After A P s₀.store ws s.store ∧ ws.Perm (es.flatMap (·.made))) ∧
      (∀ e ∈ es, Justified P (fun h => Present s₀.seen h ∨ ∃ e' ∈ es, ∃ y ∈ e'.made, ApproxHash.longIndexHash y.g = h) e) ∧
      ∀ e ∈ es, e.cast = false → e.job = .ok none ∨ (∃ g ws, e.job = .ok (some (g, ws)) ∧ (Present s₀.start (ApproxHash.longIndexHash g) ∨
        ∃ e' ∈ es, e'.cast = true ∧ ∃ g' ws', e'.job = .ok (some (g', ws')) ∧ ApproxHash.longIndexHash g' = ApproxHash.longIndexHash g)) ∨
        ∃ t < n, s.stage t = .left := by
  obtain ⟨fin, cur, starts, marks, inv⟩ := fast_runs hmax hk inv₀ hside hidle hr h
  have hc : ∀ t < n, cur t = [] := by
    intro t ht
    have h1 := inv.cur_ok t ht
    rcases hd t ht with h2 | ⟨h2, -⟩ <;> rw [h2] at h1 <;> exact h1
  have he : entries n fin cur = fin := by
    unfold entries
    rw [List.flatMap_eq_nil_iff.2 fun t ht => hc t (List.mem_range.1 ht), List.append_nil]
  have hmarks : ∀ h ∈ marks, ∃ e ∈ fin, ∃ y ∈ e.made, ApproxHash.longIndexHash y.g = h := by
    intro h hh
    rcases inv.marks_ok h hh with h1 | ⟨t, ht, w, ws, k, h1, -⟩
    · rwa [he] at h1
    · rcases hd t ht with h2 | ⟨h2, -⟩ <;> rw [h2] at h1 <;> cases h1
  refine ⟨fin ++ s.todo.map fun j => ⟨j, [], false⟩, ?_, ?_, ?_, ?_⟩
  · have := inv.jobs
    rw [he] at this
    simpa [Function.comp_def] using this
  · obtain ⟨ws, h1, h2⟩ := inv.made
    rw [he] at h2
    refine ⟨ws, h1, ?_⟩
    rw [List.flatMap_append]
    have : ((s.todo.map fun j => (⟨j, [], false⟩ : Entry)).flatMap (·.made)) = [] := by simp
    rw [this, List.append_nil]
    exact h2
  · intro e hem
    rcases List.mem_append.1 hem with hem | hem
    · refine (inv.fin_ok e hem).1.mono fun x hx => hx.imp_right fun hx => ?_
      obtain ⟨e', h1, h2⟩ := hmarks x hx
      exact ⟨e', List.mem_append_left _ h1, h2⟩
    · obtain ⟨j, -, rfl⟩ := List.mem_map.1 hem
      exact Or.inl ⟨rfl, rfl⟩
  · intro e hem hcast
    rcases List.mem_append.1 hem with hem | hem
    · rcases (inv.fin_ok e hem).2 hcast with h1 | ⟨g, ws, h1, h2⟩ | h1
      · exact Or.inl h1
      · refine Or.inr (Or.inl ⟨g, ws, h1, h2.imp_right fun h2 => ?_⟩)
        obtain ⟨e', h3, h4, g', ws', h5, h6⟩ := inv.starts_ok _ h2
        rw [he] at h3
        exact ⟨e', List.mem_append_left _ h3, h4, g', ws', h5, h6⟩
      · exact Or.inr (Or.inr h1)
    · right; right
      refine ⟨0, hn, ?_⟩
      rcases hd 0 hn with h1 | ⟨-, h1⟩
      · exact h1
      · rw [h1] at hem; simp at hem

/-! ### No failures -/

/-- The offset of a set stays within its table. -/
def Fits (h : ApproxHash.HSet) : Prop := h.offset < fullReset

theorem slot_fits {h : ApproxHash.HSet} (hf : Fits h) (a : ℕ) : ApproxHash.slotOf maskedBits h a < ApproxHash.setSize maskedBits fullReset := by
  have : a &&& ApproxHash.bitMask maskedBits ≤ ApproxHash.bitMask maskedBits := Nat.and_le_right
  have e : ApproxHash.bitMask maskedBits < 1 <<< maskedBits := by decide +kernel
  unfold Fits at hf
  unfold ApproxHash.slotOf ApproxHash.setSize
  omega

theorem present_fits {h : ApproxHash.HSet} (hf : Fits h) (a : ℕ) : ∃ b, ApproxHash.present maskedBits fullReset h a = .ok b := by
  refine ⟨h.slots (ApproxHash.slotOf maskedBits h a) == a, Outcome.bind_eq_ok.2 ⟨(), ?_, rfl⟩⟩
  simp [Outcome.require, slot_fits hf a]

theorem store_fits {h : ApproxHash.HSet} (hf : Fits h) (a : ℕ) : ∃ h', ApproxHash.store maskedBits fullReset h a = .ok h' := by
  refine ⟨_, Outcome.bind_eq_ok.2 ⟨(), ?_, rfl⟩⟩
  simp [Outcome.require, slot_fits hf a]

theorem Fits.store {h h' : ApproxHash.HSet} (hf : Fits h) {a : ℕ} (hs : ApproxHash.store maskedBits fullReset h a = .ok h') : Fits h' := by
  unfold ApproxHash.store at hs
  obtain ⟨-, h1, h2⟩ := Outcome.bind_eq_ok.1 hs
  obtain rfl := Outcome.ok.inj h2
  exact hf

theorem Fits.freshened {h : ApproxHash.HSet} (hf : Fits h) (every counter : ℤ) : Fits (freshened every counter h) := by
  unfold TsdfScan.freshened
  split
  · unfold ApproxHash.reset
    split
    · show 0 < fullReset
      decide
    · rename_i h1
      unfold Fits
      simp only
      omega
  · exact hf

theorem fast_fits {A : Arith} {P : Params} {n : ℕ} {s₀ s : FastPool} (h1 : Fits s₀.start) (h2 : Fits s₀.seen) (h : FastRuns A P n s₀ s) :
    Fits s.start ∧ Fits s.seen := by
  induction h with
  | refl => exact ⟨h1, h2⟩
  | step _ hact ih =>
    cases hact with
    | begin _ _ _ _ _ _ hs => exact ⟨ih.1.store hs, ih.2⟩
    | mark _ _ _ _ _ _ hs => exact ⟨ih.1, ih.2.store hs⟩
    | _ => exact ih

theorem fast_no_fault {A : Arith} {P : Params} (hmax : 0 ≤ P.maxCollisions) {n k : ℕ} {l : VLayer (TsdfVoxel Fl)} (hs : Sane A P.tsdf l.cfg.voxelSize)
    (wf : WellFormed l) (hl : GoodWeights A l) (hk : k < 31) (hside : l.cfg.vps = 2 ^ k) {s₀ s : FastPool} (hst : s₀.store = Store.start l)
    (hidle : ∀ t, s₀.stage t = .idle) (h1 : Fits s₀.start) (h2 : Fits s₀.seen)
    (hj : ∀ j ∈ s₀.todo, ∃ x, j = .ok x) (hr : ∀ g ws, .ok (some (g, ws)) ∈ s₀.todo → InReach ws)
    (hw : ∀ g ws, .ok (some (g, ws)) ∈ s₀.todo → ∀ w ∈ ws, ∃ u, w.obs.weight = .fin u ∧ ObsWeight A u)
    (h : FastRuns A P n s₀ s) (r : Outcome (VLayer (TsdfVoxel Fl))) : ¬ FastFault A P n s r := by
  intro hf
  obtain ⟨f1, f2⟩ := fast_fits h1 h2 h
  have inv₀ : s₀.store.Inv := hst ▸ Store.start_inv wf
  have hside' : s₀.store.layer.cfg.vps = 2 ^ k := by rw [hst]; exact hside
  obtain ⟨fin, cur, starts, marks, inv⟩ := fast_runs hmax hk inv₀ hside' hidle hr h
  have hin : ∀ j ∈ s.todo, j ∈ s₀.todo := fun j h => inv.jobs.mem_iff.1 (List.mem_append_right _ h)
  have hent : ∀ e ∈ entries n fin cur, e.job ∈ s₀.todo := fun e h =>
    inv.jobs.mem_iff.1 (List.mem_append_left _ (List.mem_map.2 ⟨e, h, rfl⟩))
  have hent_made : ∀ e ∈ entries n fin cur, ∀ w ∈ e.made, ∃ g ws, .ok (some (g, ws)) ∈ s₀.todo ∧ w ∈ ws := by
    intro e he w hw
    unfold entries at he
    rcases List.mem_append.1 he with hfin | hcur
    · rcases (inv.fin_ok e hfin).1 with ⟨-, h4⟩ | ⟨-, g, ws, h4, h5⟩
      · rw [h4] at hw; cases hw
      · refine ⟨g, ws, h4 ▸ hent e he, ?_⟩
        rcases h5 with h5 | ⟨pre, run, x, rest, h5, h6, -⟩
        · rwa [h5] at hw
        · rw [h6] at hw
          rw [h5]
          exact List.mem_append_left _ hw
    · obtain ⟨t, ht, het⟩ := List.mem_flatMap.1 hcur
      have hc := inv.cur_ok t (List.mem_range.1 ht)
      have key : ∀ g us vs, cur t = [⟨.ok (some (g, us ++ vs)), us, true⟩] → ∃ g ws, .ok (some (g, ws)) ∈ s₀.todo ∧ w ∈ ws := by
        intro g us vs e1
        rw [e1] at het
        obtain rfl := List.mem_singleton.1 het
        exact ⟨g, us ++ vs, hent _ he, List.mem_append_left _ hw⟩
      cases hst' : s.stage t with
      | idle => rw [hst'] at hc; rw [show cur t = [] from hc] at het; cases het
      | left => rw [hst'] at hc; rw [show cur t = [] from hc] at het; cases het
      | starting g ws =>
        rw [hst'] at hc
        rw [show cur t = [⟨.ok (some (g, ws)), [], false⟩] from hc] at het
        obtain rfl := List.mem_singleton.1 het
        cases hw
      | casting ws k => rw [hst'] at hc; obtain ⟨g, us, e1, -⟩ := hc; exact key g us _ e1
      | marking x ws => rw [hst'] at hc; obtain ⟨g, us, e1⟩ := hc; exact key g us _ e1
      | updating x ws k => rw [hst'] at hc; obtain ⟨g, us, e1, -⟩ := hc; exact key g us _ e1
  have hvisit : ∀ t < n, ∀ w ws k', s.stage t = .updating w ws k' → ∃ st, visit A P s.store w = .ok st := by
    intro t ht w ws k' hst'
    have hc := inv.cur_ok t ht
    rw [hst'] at hc
    obtain ⟨g, us, e1, -⟩ := hc
    have hmem : (.ok (some (g, us ++ w :: ws)) : FastJob) ∈ s₀.todo :=
      hent ⟨.ok (some (g, us ++ w :: ws)), us, true⟩ (List.mem_append_right _ (List.mem_flatMap.2 ⟨t, List.mem_range.2 ht, by rw [e1]; simp⟩))
    obtain ⟨vs, haf, hp⟩ := inv.made
    obtain ⟨f, hfe, -⟩ := visit_eq A P haf.inv hk (haf.cfg ▸ hside') (hr g _ hmem w (by simp))
    have hW := After.weights hs hl (hst ▸ haf) (fun x hx => by
      obtain ⟨e, he, hxe⟩ := List.mem_flatMap.1 (hp.mem_iff.1 hx)
      obtain ⟨g', ws', h3, h4⟩ := hent_made e he x hxe
      exact hw g' ws' h3 x h4) w.g
    have hs' : Sane A P.tsdf s.store.layer.cfg.voxelSize := by rw [haf.cfg, hst]; exact hs
    obtain ⟨v', e2, -⟩ := hs'.update (hw g _ hmem w (by simp)) hW
    exact ⟨f v', by rw [hfe, e2]; rfl⟩
  cases hf with
  | takeFatal t rest ht hst' htodo => obtain ⟨x, hx⟩ := hj _ (hin _ (by rw [htodo]; exact List.mem_cons_self ..)); cases hx
  | takeUb t rest ht hst' htodo => obtain ⟨x, hx⟩ := hj _ (hin _ (by rw [htodo]; exact List.mem_cons_self ..)); cases hx
  | startSet t g ws rest ht hst' htodo hp => obtain ⟨b, hb⟩ := present_fits f1 (ApproxHash.longIndexHash g); rw [hb] at hp; cases hp
  | beginSet t g ws ht hst' hp => obtain ⟨b, hb⟩ := store_fits f1 (ApproxHash.longIndexHash g); rw [hb] at hp; cases hp
  | seenSet t w ws k' ht hst' hp => obtain ⟨b, hb⟩ := present_fits f2 (ApproxHash.longIndexHash w.g); rw [hb] at hp; cases hp
  | markSet t w ws ht hst' hp => obtain ⟨b, hb⟩ := store_fits f2 (ApproxHash.longIndexHash w.g); rw [hb] at hp; cases hp
  | visitFatal t w ws k' ht hst' hv => obtain ⟨st, e⟩ := hvisit t ht w ws k' hst'; rw [e] at hv; cases hv
  | visitUb t w ws k' ht hst' hv => obtain ⟨st, e⟩ := hvisit t ht w ws k' hst'; rw [e] at hv; cases hv

/-! ### Termination -/

def jobWork : FastJob → ℕ
  | .ok (some (_, ws)) => 4 * ws.length + 3
  | _ => 1

def stageWork : Stage → ℕ
  | .starting _ ws => 4 * ws.length + 2
  | .casting ws _ => 4 * ws.length + 1
  | .marking _ ws => 4 * ws.length + 4
  | .updating _ ws _ => 4 * ws.length + 3
  | _ => 0

/-- A bound on the number of actions to come. -/
def FastPool.work (n : ℕ) (s : FastPool) : ℕ := (s.todo.map jobWork).sum + ((List.range n).map fun t => stageWork (s.stage t)).sum

theorem stage_sum {ts : List ℕ} (hnd : ts.Nodup) {t : ℕ} (ht : t ∈ ts) (f : ℕ → Stage) (σ : Stage) :
    (ts.map fun u => stageWork (Function.update f t σ u)).sum + stageWork (f t) = (ts.map fun u => stageWork (f u)).sum + stageWork σ := by
  induction ts with
  | nil => cases ht
  | cons a ts ih =>
    simp only [List.nodup_cons] at hnd
    simp only [List.map_cons, List.sum_cons]
    by_cases hat : a = t
    · subst hat
      have : (ts.map fun u => stageWork (Function.update f a σ u)) = ts.map fun u => stageWork (f u) := by
        refine List.map_congr_left fun b hb => ?_
        rw [Function.update_of_ne]
        rintro rfl
        exact hnd.1 hb
      rw [this, Function.update_self]
      omega
    · have := ih hnd.2 (by
        rcases List.mem_cons.1 ht with h | h
        · exact absurd h.symm hat
        · exact h)
      rw [Function.update_of_ne hat]
      omega

theorem fast_work {A : Arith} {P : Params} {n : ℕ} {s s' : FastPool} (h : FastAct A P n s s') : s'.work n < s.work n := by
  have key : ∀ t < n, ∀ σ, (((List.range n).map fun u => stageWork (Function.update s.stage t σ u)).sum) + stageWork (s.stage t) =
      ((List.range n).map fun u => stageWork (s.stage u)).sum + stageWork σ := fun t ht σ =>
    stage_sum List.nodup_range (List.mem_range.2 ht) s.stage σ
  have hjob : ∀ j, 1 ≤ jobWork j := by
    intro j
    rcases j with (_ | _) | _ | _ <;> simp [jobWork]
  unfold FastPool.work
  cases h with
  | reject t rest ht hst htodo => rw [htodo]; simp [jobWork]
  | known t g ws rest ht hst htodo hp => rw [htodo]; simp [jobWork]
  | start t g ws rest ht hst htodo hp =>
    have := key t ht (.starting g ws)
    rw [htodo]
    simp only [hst, stageWork, List.map_cons, List.sum_cons, jobWork] at *
    omega
  | begin t g ws h ht hst hs =>
    have := key t ht (.casting ws 0)
    simp only [hst, stageWork] at *
    omega
  | hit t w ws k ht hst hp =>
    have := key t ht (afterCheck P w ws (k + 1))
    have h2 : stageWork (afterCheck P w ws (k + 1)) ≤ 4 * ws.length + 3 := by
      unfold afterCheck; split <;> simp [stageWork]
    simp only [hst, stageWork, List.length_cons] at *
    omega
  | miss t w ws k ht hst hp =>
    have := key t ht (.marking w ws)
    simp only [hst, stageWork, List.length_cons] at *
    omega
  | mark t w ws h ht hst hs =>
    have := key t ht (afterCheck P w ws 0)
    have h2 : stageWork (afterCheck P w ws 0) ≤ 4 * ws.length + 3 := by
      unfold afterCheck; split <;> simp [stageWork]
    simp only [hst, stageWork] at *
    omega
  | update t w ws k st ht hst hv =>
    have := key t ht (.casting ws k)
    simp only [hst, stageWork] at *
    omega
  | finish t k ht hst =>
    have := key t ht .idle
    simp only [hst, stageWork, List.length_nil] at *
    omega
  | leave t j rest ht hst htodo =>
    have := key t ht .left
    have h2 := hjob j
    rw [htodo]
    simp only [hst, stageWork, List.map_cons, List.sum_cons] at *
    omega

/-- As long as not all workers are done, one of them can act or fails. -/
theorem fast_progress {A : Arith} {P : Params} {n : ℕ} (s : FastPool) (hd : ¬ s.Done n) :
    (∃ s', FastAct A P n s s') ∨ ∃ r, FastFault A P n s r := by
  unfold FastPool.Done at hd
  push Not at hd
  obtain ⟨t, ht, h1, h2⟩ := hd
  cases hst : s.stage t with
  | left => exact absurd hst h1
  | idle =>
    cases htodo : s.todo with
    | nil => exact absurd htodo (h2 hst)
    | cons j rest =>
      cases j with
      | fatal => exact Or.inr ⟨_, .takeFatal t rest ht hst htodo⟩
      | ub => exact Or.inr ⟨_, .takeUb t rest ht hst htodo⟩
      | ok x =>
        cases x with
        | none => exact Or.inl ⟨_, .reject t rest ht hst htodo⟩
        | some gw =>
          obtain ⟨g, ws⟩ := gw
          cases hp : ApproxHash.present maskedBits fullReset s.start (ApproxHash.longIndexHash g) with
          | ok b =>
            cases b with
            | true => exact Or.inl ⟨_, .known t g ws rest ht hst htodo hp⟩
            | false => exact Or.inl ⟨_, .start t g ws rest ht hst htodo hp⟩
          | fatal => exact absurd hp (by unfold ApproxHash.present Outcome.require; simp only; split <;> intro h <;> cases h)
          | ub => exact Or.inr ⟨_, .startSet t g ws rest ht hst htodo hp⟩
  | starting g ws =>
    cases hp : ApproxHash.store maskedBits fullReset s.start (ApproxHash.longIndexHash g) with
    | ok h => exact Or.inl ⟨_, .begin t g ws h ht hst hp⟩
    | fatal => exact absurd hp (by unfold ApproxHash.store Outcome.require; simp only; split <;> intro h <;> cases h)
    | ub => exact Or.inr ⟨_, .beginSet t g ws ht hst hp⟩
  | casting ws k =>
    cases ws with
    | nil => exact Or.inl ⟨_, .finish t k ht hst⟩
    | cons w ws =>
      cases hp : ApproxHash.present maskedBits fullReset s.seen (ApproxHash.longIndexHash w.g) with
      | ok b =>
        cases b with
        | true => exact Or.inl ⟨_, .hit t w ws k ht hst hp⟩
        | false => exact Or.inl ⟨_, .miss t w ws k ht hst hp⟩
      | fatal => exact absurd hp (by unfold ApproxHash.present Outcome.require; simp only; split <;> intro h <;> cases h)
      | ub => exact Or.inr ⟨_, .seenSet t w ws k ht hst hp⟩
  | marking w ws =>
    cases hp : ApproxHash.store maskedBits fullReset s.seen (ApproxHash.longIndexHash w.g) with
    | ok h => exact Or.inl ⟨_, .mark t w ws h ht hst hp⟩
    | fatal => exact absurd hp (by unfold ApproxHash.store Outcome.require; simp only; split <;> intro h <;> cases h)
    | ub => exact Or.inr ⟨_, .markSet t w ws ht hst hp⟩
  | updating w ws k =>
    cases hv : visit A P s.store w with
    | ok st => exact Or.inl ⟨_, .update t w ws k st ht hst hv⟩
    | fatal => exact Or.inr ⟨_, .visitFatal t w ws k ht hst hv⟩
    | ub => exact Or.inr ⟨_, .visitUb t w ws k ht hst hv⟩

/-- From every state the workers get done or fail. -/
theorem fast_completes {A : Arith} {P : Params} {n : ℕ} (m : ℕ) (s₀ s : FastPool) (hm : s.work n ≤ m) (h : FastRuns A P n s₀ s) :
    ∃ s', FastRuns A P n s₀ s' ∧ (s'.Done n ∨ ∃ r, FastFault A P n s' r) := by
  induction m generalizing s with
  | zero =>
    by_cases hd : s.Done n
    · exact ⟨s, h, Or.inl hd⟩
    · rcases fast_progress (A := A) (P := P) s hd with ⟨s', hs'⟩ | hf
      · have := fast_work hs'; omega
      · exact ⟨s, h, Or.inr hf⟩
  | succ m ih =>
    by_cases hd : s.Done n
    · exact ⟨s, h, Or.inl hd⟩
    · rcases fast_progress (A := A) (P := P) s hd with ⟨s', hs'⟩ | hf
      · have := fast_work hs'
        exact ih s' (by omega) (h.step hs')
      · exact ⟨s, h, Or.inr hf⟩

/-! ### A particular execution -/

/-- The next action of worker 0, within the time limit. -/
def fastStep (A : Arith) (P : Params) (s : FastPool) : Option FastPool :=
  match s.stage 0, s.todo with
  | .idle, .ok none :: rest => some { s with todo := rest }
  | .idle, .ok (some (g, ws)) :: rest =>
    match ApproxHash.present maskedBits fullReset s.start (ApproxHash.longIndexHash g) with
    | .ok true => some { s with todo := rest }
    | .ok false => some { s with todo := rest, stage := Function.update s.stage 0 (.starting g ws) }
    | _ => none
  | .starting g ws, _ =>
    match ApproxHash.store maskedBits fullReset s.start (ApproxHash.longIndexHash g) with
    | .ok h => some { s with start := h, stage := Function.update s.stage 0 (.casting ws 0) }
    | _ => none
  | .casting [] _, _ => some { s with stage := Function.update s.stage 0 .idle }
  | .casting (w :: ws) k, _ =>
    match ApproxHash.present maskedBits fullReset s.seen (ApproxHash.longIndexHash w.g) with
    | .ok true => some { s with stage := Function.update s.stage 0 (afterCheck P w ws (k + 1)) }
    | .ok false => some { s with stage := Function.update s.stage 0 (.marking w ws) }
    | _ => none
  | .marking w ws, _ =>
    match ApproxHash.store maskedBits fullReset s.seen (ApproxHash.longIndexHash w.g) with
    | .ok h => some { s with seen := h, stage := Function.update s.stage 0 (afterCheck P w ws 0) }
    | _ => none
  | .updating w ws k, _ =>
    match visit A P s.store w with
    | .ok st => some { s with store := st, stage := Function.update s.stage 0 (.casting ws k) }
    | _ => none
  | _, _ => none

theorem fastStep_act {A : Arith} {P : Params} {n : ℕ} (hn : 0 < n) {s s' : FastPool} (h : fastStep A P s = some s') : FastAct A P n s s' := by
  unfold fastStep at h
  split at h
  · rename_i h1 h2
    obtain rfl := Option.some.inj h
    exact .reject 0 _ hn h1 h2
  · rename_i h1 h2
    split at h
    · rename_i hp; obtain rfl := Option.some.inj h; exact .known 0 _ _ _ hn h1 h2 hp
    · rename_i hp; obtain rfl := Option.some.inj h; exact .start 0 _ _ _ hn h1 h2 hp
    · cases h
  · rename_i h1
    split at h
    · rename_i hp; obtain rfl := Option.some.inj h; exact .begin 0 _ _ _ hn h1 hp
    · cases h
  · rename_i h1
    obtain rfl := Option.some.inj h
    exact .finish 0 _ hn h1
  · rename_i h1
    split at h
    · rename_i hp; obtain rfl := Option.some.inj h; exact .hit 0 _ _ _ hn h1 hp
    · rename_i hp; obtain rfl := Option.some.inj h; exact .miss 0 _ _ _ hn h1 hp
    · cases h
  · rename_i h1
    split at h
    · rename_i hp; obtain rfl := Option.some.inj h; exact .mark 0 _ _ _ hn h1 hp
    · cases h
  · rename_i h1
    split at h
    · rename_i hp; obtain rfl := Option.some.inj h; exact .update 0 _ _ _ _ hn h1 hp
    · cases h
  · cases h

/-- Let worker 0 act as long as it can. -/
def fastLoop (A : Arith) (P : Params) : ℕ → FastPool → FastPool
  | 0, s => s
  | m + 1, s => match fastStep A P s with
    | some s' => fastLoop A P m s'
    | none => s

theorem fastLoop_runs {A : Arith} {P : Params} {n : ℕ} (hn : 0 < n) (m : ℕ) : ∀ {s₀ s : FastPool}, FastRuns A P n s₀ s →
    FastRuns A P n s₀ (fastLoop A P m s) := by
  induction m with
  | zero => intro s₀ s h; exact h
  | succ m ih =>
    intro s₀ s h
    unfold fastLoop
    split
    · rename_i hs; exact ih (h.step (fastStep_act hn hs))
    · exact h

end Vox.TsdfScan
