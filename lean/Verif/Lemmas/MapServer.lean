import Verif.Spec.MapServer
import Verif.Lemmas.LayerMsg
import Mathlib.Data.List.Forall2
import Mathlib.Tactic.Linarith

namespace Vox.MapServer

open Layer Grid LayerMsg Spec

variable {V : Type} {T : VoxelType V} {ar : Arith} {cfg : Cfg}

/-- Blocks that are not flagged agree. -/
structure Behind (A B : VLayer V) : Prop where
  cfg : B.cfg = A.cfg
  blocks : ∀ i, MapFlagged A i ∨ ((Allocated B i ↔ Allocated A i) ∧ ∀ g, blockOf A.cfg.vps g = i → content B g = content A g)

theorem Mirrors.behind {A B : VLayer V} (h : Mirrors A B) : Behind A B := ⟨h.cfg, fun i => Or.inr ⟨h.blocks i, fun g _ => h.voxels g⟩⟩

theorem Behind.change {A A' B : VLayer V} (h : Behind A B) (hc : FlagsChanges A A') : Behind A' B := by
  refine ⟨h.cfg.trans hc.cfg.symm, fun i => ?_⟩
  rcases hc.blocks i with hf | ⟨hn, ha, hv⟩
  · exact Or.inl hf
  · rcases h.blocks i with hf | ⟨ha', hv'⟩
    · exact absurd hf hn
    · right
      refine ⟨ha'.trans ha.symm, fun g hg => ?_⟩
      rw [hc.cfg] at hg
      rw [hv' g hg, hv g hg]

theorem allocated_received {S : Idx → Prop} {A B B' : VLayer V} (h : Received S A B B') (i : Idx) : Allocated B' i ↔ S i ∨ Allocated B i := by
  classical
  rw [allocated_iff_status, allocated_iff_status, h.states i]
  by_cases hs : S i <;> simp [hs]

theorem Behind.received {A B B' : VLayer V} (h : Behind A B) (hr : Received (MapFlagged A) A B B') : Mirrors A B' := by
  classical
  refine ⟨hr.cfg.trans h.cfg, fun g => ?_, fun i => ?_⟩
  · rw [hr.voxels g]
    by_cases hs : MapFlagged A (blockOf A.cfg.vps g)
    · rw [if_pos hs]
    · rw [if_neg hs]
      rcases h.blocks (blockOf A.cfg.vps g) with hf | ⟨_, hv⟩
      · exact absurd hf hs
      · exact hv g rfl
  · rw [allocated_received hr]
    rcases h.blocks i with hf | ⟨ha, _⟩
    · exact ⟨fun _ => sent_allocated hf, fun _ => Or.inl hf⟩
    · constructor
      · rintro (hf | hb)
        · exact sent_allocated hf
        · exact ha.1 hb
      · exact fun h => Or.inr (ha.2 h)

theorem mirrors_reset {A B B' : VLayer V} (wa : WellFormed A) (wb : WellFormed B) (hc : B.cfg = A.cfg) (hr : Received (Sent A false) A (Emptied B) B') : Mirrors A B' := by
  classical
  have hs : ∀ i, Sent A false i ↔ Allocated A i := by
    intro i
    refine ⟨sent_allocated, fun h => ?_⟩
    obtain ⟨st, hst⟩ := Option.isSome_iff_exists.1 (allocated_iff_status.1 h)
    exact ⟨st.1, st.2, hst, by simp⟩
  refine ⟨hr.cfg.trans hc, fun g => ?_, fun i => ?_⟩
  · rw [hr.voxels g]
    by_cases h : Sent A false (blockOf A.cfg.vps g)
    · rw [if_pos h]
    · rw [if_neg h, emptied_content wb]
      rw [hs] at h
      have := content_isSome wa g
      cases e : content A g with
      | none => rfl
      | some v => rw [e] at this; exact absurd this.symm h
  · rw [allocated_received hr, hs]
    have : ¬ Allocated (Emptied B) i := by
      intro h
      have h' : (([] : List (Idx × Block ℚ V)).lookup i).isSome = true := h
      cases h'
    simp [this]

theorem mapCallback_ok (har : ar.Faithful) {A B : VLayer V} (hA : Sound T cfg A) (hB : SoundCopy cfg B) (r : Bool) :
    ∃ m B', mapMsg T A r = .ok m ∧ mapCallback T ar m B = .ok B' ∧ SoundCopy cfg B' ∧ (r = true → Mirrors A B') ∧
      (r = false → Received (MapFlagged A) A B B') := by
  have hc : A.cfg = B.cfg := hA.cfg.trans hB.cfg.symm
  cases r with
  | true =>
    obtain ⟨m, B', h1, h2, h3⟩ := transfer T har hA.wf hB.wf hc hA.unique hB.unique hA.transmits false (action := 2) (by norm_num)
    have h3' : Received (Sent A false) A (Emptied B) B' := received_congr h3 fun i => by
      have : ¬ Allocated (Emptied B) i := by
        intro h
        have h' : (([] : List (Idx × Block ℚ V)).lookup i).isSome = true := h
        cases h'
      simp [this]
    refine ⟨m, B', h1, ?_, ⟨h3'.cfg.trans hB.cfg, h3'.wf, h3'.unique⟩, fun _ => mirrors_reset hA.wf hB.wf hc.symm h3', by simp⟩
    unfold mapCallback
    rw [h2]; rfl
  | false =>
    obtain ⟨m, B', h1, h2, h3⟩ := transfer T har hA.wf hB.wf hc hA.unique hB.unique hA.transmits true (action := 0) (by norm_num)
    have h3' : Received (Sent A true) A B B' := received_congr h3 fun i => by simp
    refine ⟨m, B', h1, ?_, ⟨h3'.cfg.trans hB.cfg, h3'.wf, h3'.unique⟩, by simp, fun _ => h3'⟩
    unfold mapCallback
    rw [h2]; rfl

theorem mapMsg_ok {A : VLayer V} (hA : Sound T cfg A) (r : Bool) : ∃ m, mapMsg T A r = .ok m := by
  obtain ⟨ms, h, _⟩ := serializeLayer_ok T hA.wf hA.unique hA.transmits (!r) (if r then 2 else 0)
  exact ⟨_, h⟩

theorem deliver_ok (har : ar.Faithful) {A : VLayer V} (hA : Sound T cfg A) (r : Bool) {m : Msg} (hm : mapMsg T A r = .ok m) (subs : List (ℕ × VLayer V))
    (hs : ∀ s ∈ subs, SoundCopy cfg s.2) (hb : r = false → ∀ s ∈ subs, Behind A s.2) :
    ∃ subs', deliver T ar (some m) subs = .ok subs' ∧ subs'.length = subs.length ∧ subs'.map Prod.fst = subs.map Prod.fst ∧
      ∀ s ∈ subs', SoundCopy cfg s.2 ∧ Mirrors A s.2 := by
  show ∃ subs', subs.mapM (fun s => do let B ← mapCallback T ar m s.2; pure (s.1, B)) = .ok subs' ∧ _
  induction subs with
  | nil => exact ⟨[], rfl, rfl, rfl, by simp⟩
  | cons s ss ih =>
    obtain ⟨ss', h1, h2, h2', h3⟩ := ih (fun x hx => hs x (by simp [hx])) (fun hr x hx => hb hr x (by simp [hx]))
    obtain ⟨m', B', k1, k2, k3, k4, k5⟩ := mapCallback_ok har hA (hs s (by simp)) r
    obtain rfl : m' = m := Outcome.ok.inj (k1.symm.trans hm)
    refine ⟨(s.1, B') :: ss', ?_, by simp [h2], by simp [h2'], ?_⟩
    · rw [List.mapM_cons, h1, k2]
      rfl
    · intro x hx
      rcases List.mem_cons.1 hx with rfl | hx
      · refine ⟨k3, ?_⟩
        cases r with
        | true => exact k4 rfl
        | false => exact (hb rfl s (by simp)).received (k5 rfl)
      · exact h3 x hx

/-- What holds between two messages: `j` joined and `l` left since the last. -/
structure Inv (T : VoxelType V) (cfg : Cfg) (j l : ℕ) (w : World V) : Prop where
  sound : Sound T cfg w.map
  copies : ∀ s ∈ w.subs, SoundCopy cfg s.2
  enabled : w.pub.enabled = true
  count : w.pub.known + j ≤ w.subs.length + l
  behind : j = 0 → ∀ s ∈ w.subs, Behind w.map s.2

theorem publish_ok (har : ar.Faithful) {w : World V} (hA : Sound T cfg w.map) (hs : ∀ s ∈ w.subs, SoundCopy cfg s.2) (he : w.pub.enabled = true)
    (reset : Bool) (hb : reset = false → w.subs.length ≤ w.pub.known → ∀ s ∈ w.subs, Behind w.map s.2) :
    ∃ r subs', MapServer.publishMap T w.pub w.map w.subs.length reset = .ok r ∧ deliver T ar r.1 w.subs = .ok subs' ∧ r.2 = ⟨true, w.subs.length⟩ ∧
      subs'.length = w.subs.length ∧ subs'.map Prod.fst = w.subs.map Prod.fst ∧ ∀ s ∈ subs', SoundCopy cfg s.2 ∧ Mirrors w.map s.2 := by
  unfold MapServer.publishMap
  rw [if_neg (by rw [he]; decide)]
  by_cases h0 : 0 < w.subs.length
  · rw [if_pos h0]
    obtain ⟨m, hm⟩ := mapMsg_ok hA (resets w.pub w.subs.length reset)
    obtain ⟨subs', h1, h2, h2', h3⟩ := deliver_ok har hA _ hm w.subs hs (by
      intro hr
      unfold resets at hr
      simp only [Bool.or_eq_false_iff, decide_eq_false_iff_not] at hr
      exact hb hr.1 (by omega))
    refine ⟨(some m, { w.pub with known := w.subs.length }), subs', ?_, h1, ?_, h2, h2', h3⟩
    · rw [hm]; rfl
    · rw [← he]
  · rw [if_neg h0]
    have : w.subs = [] := by rw [← List.length_eq_zero_iff]; omega
    refine ⟨_, w.subs, rfl, rfl, ?_, rfl, rfl, ?_⟩
    · rw [← he]
    · rw [this]; simp

theorem removeAll_eq (A : VLayer V) : removeAllBlocks A = Emptied A := rfl

theorem emptied_sound {A : VLayer V} (h : Sound T cfg A) : Sound T cfg (Emptied A) := by
  refine ⟨h.cfg, emptied_wf h.wf, by simp [Emptied], ?_⟩
  intro i b hb
  cases hb

theorem step_publish (har : ar.Faithful) {j l : ℕ} {w : World V} (h : Inv T cfg j l w) (hjl : j = 0 ∨ l < j) :
    ∃ w', w.step T ar .publish = .ok w' ∧ Inv T cfg 0 0 w' ∧ w'.map = w.map ∧ w'.subs.map Prod.fst = w.subs.map Prod.fst ∧ ∀ s ∈ w'.subs, Mirrors w'.map s.2 := by
  obtain ⟨r, subs', h1, h2, h3, h4, h4', h5⟩ := publish_ok har h.sound h.copies h.enabled false (by
    intro _ hk
    have := h.count
    exact h.behind (by omega))
  refine ⟨⟨w.map, r.2, subs'⟩, ?_, ⟨h.sound, fun s hs => (h5 s hs).1, by rw [h3], by rw [h3]; simp [h4], fun _ s hs => Mirrors.behind (h5 s hs).2⟩, rfl, h4', fun s hs => (h5 s hs).2⟩
  unfold World.step
  rw [h1, Outcome.bind_ok, h2]; rfl

theorem step_clear (har : ar.Faithful) {j l : ℕ} {w : World V} (h : Inv T cfg j l w) :
    ∃ w', w.step T ar .clear = .ok w' ∧ Inv T cfg 0 0 w' ∧ w'.map = Emptied w.map ∧ w'.subs.map Prod.fst = w.subs.map Prod.fst ∧ ∀ s ∈ w'.subs, Mirrors w'.map s.2 := by
  obtain ⟨r, subs', h1, h2, h3, h4, h4', h5⟩ := publish_ok (w := ⟨Emptied w.map, w.pub, w.subs⟩) har (emptied_sound h.sound) h.copies h.enabled true (by simp)
  refine ⟨⟨Emptied w.map, r.2, subs'⟩, ?_, ⟨emptied_sound h.sound, fun s hs => (h5 s hs).1, by rw [h3], by rw [h3]; simp [h4], fun _ s hs => Mirrors.behind (h5 s hs).2⟩,
    rfl, h4', fun s hs => (h5 s hs).2⟩
  unfold World.step MapServer.clear
  rw [if_pos h.enabled, removeAll_eq]
  have h1' : MapServer.publishMap T w.pub (Emptied w.map) w.subs.length true = .ok r := h1
  have h2' : deliver T ar r.1 w.subs = .ok subs' := h2
  rw [h1']
  simp only [Outcome.bind_ok, Outcome.pure_eq]
  rw [h2']; rfl

theorem run_ok (har : ar.Faithful) (es : List (MapEvent V)) : ∀ {j l : ℕ} {w : World V}, Inv T cfg j l w → Orderly T cfg j l w.map es →
    ∃ w', w.run T ar es = .ok w' ∧ ((∃ e, es.getLast? = some e ∧ (e = .publish ∨ e = .clear)) → ∀ s ∈ w'.subs, Mirrors w'.map s.2) := by
  induction es with
  | nil => intro j l w h _; exact ⟨w, rfl, by simp⟩
  | cons e es ih =>
    intro j l w h ho
    have hrun : ∀ {w1 : World V}, w.step T ar e = .ok w1 → w.run T ar (e :: es) = w1.run T ar es := by
      intro w1 hw
      unfold World.run
      rw [List.foldlM_cons, hw]; rfl
    -- the last event is the last of the rest, or this one
    have hgoal : ∀ {j l : ℕ} {w1 : World V}, w.step T ar e = .ok w1 → Inv T cfg j l w1 → Orderly T cfg j l w1.map es →
        ((e = .publish ∨ e = .clear) → ∀ s ∈ w1.subs, Mirrors w1.map s.2) →
        ∃ w', w.run T ar (e :: es) = .ok w' ∧ ((∃ e', (e :: es).getLast? = some e' ∧ (e' = .publish ∨ e' = .clear)) → ∀ s ∈ w'.subs, Mirrors w'.map s.2) := by
      intro j l w1 hw hi ho1 hm
      obtain ⟨w', r1, r2⟩ := ih hi ho1
      refine ⟨w', (hrun hw).trans r1, ?_⟩
      rintro ⟨e', he, hk⟩
      cases es with
      | nil =>
        obtain rfl : w1 = w' := Outcome.ok.inj r1
        simp only [List.getLast?_singleton, Option.some.injEq] at he
        exact hm (he ▸ hk)
      | cons x xs =>
        rw [List.getLast?_cons_cons] at he
        exact r2 ⟨e', he, hk⟩
    cases e with
    | change A' =>
      obtain ⟨hs, hf, ho⟩ := ho
      refine hgoal (w1 := { w with map := A' }) rfl ⟨hs, h.copies, h.enabled, h.count, fun hj s hs => (h.behind hj s hs).change hf⟩ ho ?_
      rintro (h | h) <;> cases h
    | join n B =>
      obtain ⟨hB, ho⟩ := ho
      refine hgoal (w1 := { w with subs := w.subs ++ [(n, B)] }) rfl ⟨h.sound, ?_, h.enabled, ?_, by omega⟩ ho ?_
      · intro s hs
        rcases List.mem_append.1 hs with hs | hs
        · exact h.copies s hs
        · rw [List.mem_singleton.1 hs]; exact hB
      · have := h.count
        simp only [List.length_append, List.length_singleton]
        omega
      · rintro (h | h) <;> cases h
    | leave n =>
      refine hgoal (w1 := { w with subs := w.subs.eraseP fun s => s.1 == n }) rfl ⟨h.sound, ?_, h.enabled, ?_, ?_⟩ ho ?_
      · exact fun s hs => h.copies s (List.mem_of_mem_eraseP hs)
      · have := h.count
        have hl := List.length_eraseP (p := fun s : ℕ × VLayer V => s.1 == n) (l := w.subs)
        simp only at hl ⊢
        split at hl <;> omega
      · exact fun hj s hs => h.behind hj s (List.mem_of_mem_eraseP hs)
      · rintro (h | h) <;> cases h
    | publish =>
      obtain ⟨hjl, ho⟩ := ho
      obtain ⟨w1, h1, h2, h3, -, h4⟩ := step_publish har h hjl
      exact hgoal h1 h2 (by rw [h3]; exact ho) fun _ => h4
    | clear =>
      obtain ⟨w1, h1, h2, h3, -, h4⟩ := step_clear har h
      exact hgoal h1 h2 (by rw [h3]; exact ho) fun _ => h4

end Vox.MapServer
