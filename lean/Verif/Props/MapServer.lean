/-
C82: subscribers of a published map have the server's map.
-/
import Verif.Lemmas.MapServer
import Verif.Props.LayerMsg

namespace Vox.MapServer

open Layer Grid LayerMsg Spec

variable {V W : Type}

/-- **C82 (synchrony).** Start a server with any proper map and no subscribers. Let the map change (every change flagged, no block removed), be cleared and be
published, and let subscribers with proper maps of their own come and go, such that between two messages more join than leave or none joins. Then nothing aborts,
and after each publishing or clearing every subscriber has exactly the server's blocks and voxels. -/
theorem C82_mirror (T : VoxelType V) {ar : Arith} (har : ar.Faithful) {cfg : Cfg} {A : VLayer V} (hA : Sound T cfg A) (es : List (MapEvent V)) (last : MapEvent V)
    (hl : last = .publish ∨ last = .clear) (ho : Orderly T cfg 0 0 A (es ++ [last])) :
    ∃ w, World.run T ar ⟨A, ⟨true, 0⟩, []⟩ (es ++ [last]) = .ok w ∧ ∀ s ∈ w.subs, Mirrors w.map s.2 := by
  obtain ⟨w, h1, h2⟩ := run_ok har (es ++ [last]) (w := ⟨A, ⟨true, 0⟩, []⟩) ⟨hA, by simp, rfl, by simp, by simp⟩ ho
  exact ⟨w, h1, h2 ⟨last, by simp, hl⟩⟩

/-- One block of one voxel, flagged. -/
def exOne : VLayer (TsdfVoxel Word) :=
  ⟨⟨1 / 2, 1⟩, [(⟨4, 0, -1⟩, ⟨1, 1 / 2, ⟨2, 0, -1 / 2⟩, false, Flags.setAll, [⟨0x3f800000#32, 0x40000000#32, ⟨1, 2, 3, 4⟩⟩]⟩)]⟩

theorem exOne_wf : WellFormed exOne := by
  refine ⟨by norm_num [exOne], by decide, by decide, ?_⟩
  intro i b h
  unfold exOne at h
  rw [lookup_cons_ite] at h
  split_ifs at h with h1
  · obtain rfl := Option.some.inj h
    rw [h1]
    exact ⟨rfl, rfl, by norm_num [exOne], rfl⟩
  · cases h

theorem exOne_sound : Sound (tsdfType exMerge) ⟨1 / 2, 1⟩ exOne := ⟨rfl, exOne_wf, by decide, C62_transmits_tsdf _⟩

theorem exOne_empty_sound : Sound (tsdfType exMerge) ⟨1 / 2, 1⟩ (Emptied exOne) := emptied_sound exOne_sound

theorem exOne_flags : FlagsChanges (Emptied exOne) exOne := by
  refine ⟨rfl, fun i => ?_⟩
  by_cases hi : i = ⟨4, 0, -1⟩
  · left
    subst hi
    exact ⟨false, Flags.setAll, by decide +kernel, fun _ => rfl⟩
  · right
    have h0 : exOne.blocks.lookup i = none := by
      unfold exOne
      rw [lookup_cons_ite, if_neg hi]; rfl
    refine ⟨?_, ?_, ?_⟩
    · rintro ⟨h, u, hs, _⟩
      have := emptied_content (V := TsdfVoxel Word) exOne_wf
      have hn : status (Emptied exOne) i = none := rfl
      rw [hn] at hs; cases hs
    · unfold Allocated
      rw [h0]; exact Iff.rfl
    · intro g hg
      rw [emptied_content exOne_wf]
      have := content_isSome exOne_wf g
      cases e : content exOne g with
      | none => rfl
      | some v =>
        rw [e] at this
        have hb : block? exOne (blockOf exOne.cfg.vps g) = none := by
          rw [show blockOf exOne.cfg.vps g = i from hg]; exact h0
        rw [hb] at this; cases this

example : Orderly (tsdfType exMerge) ⟨1 / 2, 1⟩ 0 0 (Emptied exOne)
      ([.join 7 exReceiver, .publish, .change exOne, .join 8 exReceiver, .publish, .leave 7] ++ [.publish]) ∧
    (match World.run (tsdfType exMerge) (Arith.exact fun q => .fin q) ⟨Emptied exOne, ⟨true, 0⟩, []⟩
        ([.join 7 exReceiver, .publish, .change exOne, .join 8 exReceiver, .publish, .leave 7] ++ [.publish]) with
      | .ok w => decide (w.subs.map (·.1) = [8] ∧ w.subs.map (fun s => s.2.blocks.map fun b => (b.1, b.2.voxels)) = [exOne.blocks.map fun b => (b.1, b.2.voxels)])
      | _ => false) = true := by
  refine ⟨⟨⟨rfl, exReceiver_wf, by decide⟩, Or.inr (by decide), exOne_sound, exOne_flags, ⟨rfl, exReceiver_wf, by decide⟩, Or.inr (by decide), Or.inl rfl, trivial⟩, ?_⟩
  decide +kernel

/-- **C82 (violated: removed blocks).** A block removed from the map (as those far from the sensor are) stays in the map of the subscribers for ever. -/
theorem C82_removed_violated : ∃ (T : VoxelType (TsdfVoxel Word)) (A B : VLayer (TsdfVoxel Word)), WellFormed A ∧
    match World.run T (Arith.exact fun q => .fin q) ⟨A, ⟨true, 0⟩, []⟩ [.join 7 B, .publish, .change ⟨A.cfg, A.blocks.filter fun e => e.1 ≠ ⟨4, 0, -1⟩⟩, .publish] with
    | .ok w => ∃ s ∈ w.subs, Allocated s.2 ⟨4, 0, -1⟩ ∧ ¬ Allocated w.map ⟨4, 0, -1⟩
    | _ => False := by
  refine ⟨tsdfType exMerge, exSender, Emptied exSender, exSender_wf, ?_⟩
  have h : (match World.run (tsdfType exMerge) (Arith.exact fun q => .fin q) ⟨exSender, ⟨true, 0⟩, []⟩
      [.join 7 (Emptied exSender), .publish, .change ⟨exSender.cfg, exSender.blocks.filter fun e => e.1 ≠ ⟨4, 0, -1⟩⟩, .publish] with
    | .ok w => decide (∃ s ∈ w.subs, (s.2.blocks.lookup ⟨4, 0, -1⟩).isSome = true ∧ ¬ (w.map.blocks.lookup ⟨4, 0, -1⟩).isSome = true)
    | _ => false) = true := by decide +kernel
  split at h
  · rename_i w hw
    have h2 := of_decide_eq_true h
    exact h2
  · cases h

/-- **C82 (violated: replaced subscribers).** A subscriber who joins while another leaves is taken for the old one: his map is not reset, and he keeps blocks the
server does not have, though all blocks of the server are flagged. -/
theorem C82_replaced_violated : ∃ (T : VoxelType (TsdfVoxel Word)) (A B : VLayer (TsdfVoxel Word)), WellFormed A ∧ WellFormed B ∧ (∀ e ∈ A.blocks, e.2.updated.map = true) ∧
    match World.run T (Arith.exact fun q => .fin q) ⟨A, ⟨true, 0⟩, []⟩ [.join 7 B, .publish, .leave 7, .join 8 B, .publish] with
    | .ok w => ∃ s ∈ w.subs, Allocated s.2 ⟨5, 3, 1⟩ ∧ ¬ Allocated w.map ⟨5, 3, 1⟩
    | _ => False := by
  refine ⟨tsdfType exMerge, exOne, exReceiver, exOne_wf, exReceiver_wf, by decide, ?_⟩
  have h : (match World.run (tsdfType exMerge) (Arith.exact fun q => .fin q) ⟨exOne, ⟨true, 0⟩, []⟩
      [.join 7 exReceiver, .publish, .leave 7, .join 8 exReceiver, .publish] with
    | .ok w => decide (∃ s ∈ w.subs, (s.2.blocks.lookup ⟨5, 3, 1⟩).isSome = true ∧ ¬ (w.map.blocks.lookup ⟨5, 3, 1⟩).isSome = true)
    | _ => false) = true := by decide +kernel
  split at h
  · rename_i w hw
    have h2 := of_decide_eq_true h
    exact h2
  · cases h

/-- **C82 (violated: relayed maps).** A server that receives a map does not flag what it receives: whatever blocks it gets, exactly the blocks flagged before are
sent on to its own subscribers. -/
theorem C82_relay_violated (T : VoxelType V) {ar : Arith} (har : ar.Faithful) {cfg : Cfg} {A B : VLayer V} (hA : Sound T cfg A) (hB : SoundCopy cfg B) :
    ∃ m B', mapMsg T A false = .ok m ∧ mapCallback T ar m B = .ok B' ∧ (∀ i, MapFlagged B' i ↔ MapFlagged B i) ∧
      ∀ g, MapFlagged A (blockOf A.cfg.vps g) → content B' g = content A g := by
  classical
  obtain ⟨m, B', h1, h2, h3, h4, h5⟩ := mapCallback_ok har hA hB false
  have hr := h5 rfl
  refine ⟨m, B', h1, h2, fun i => ?_, fun g hg => ?_⟩
  · unfold MapFlagged Sent
    rw [hr.states i]
    by_cases hs : MapFlagged A i
    · rw [if_pos hs]
      cases e : status B i with
      | none => simp [Flags.ofBool]
      | some st => simp
    · rw [if_neg hs]
  · rw [hr.voxels g, if_pos hg]

/-- A chain of two servers: the second gets a block, and its next message is empty. -/
example : (match mapMsg (tsdfType exMerge) exOne false with
    | .ok m => (match mapCallback (tsdfType exMerge) (Arith.exact fun q => .fin q) m (Emptied exOne) with
      | .ok B => (match mapMsg (tsdfType exMerge) B false with
        | .ok m' => decide (m.blocks.length = 1 ∧ B.blocks.length = 1 ∧ m'.blocks = [])
        | _ => false)
      | _ => false)
    | _ => false) = true := by decide +kernel

example : Sound (tsdfType exMerge) ⟨1 / 2, 1⟩ exOne ∧ SoundCopy ⟨1 / 2, 1⟩ exReceiver ∧ MapFlagged exOne ⟨4, 0, -1⟩ ∧ ¬ MapFlagged (Emptied exOne) ⟨4, 0, -1⟩ := by
  refine ⟨exOne_sound, ⟨rfl, exReceiver_wf, by decide⟩, ⟨false, Flags.setAll, by decide +kernel, fun _ => rfl⟩, ?_⟩
  rintro ⟨h, u, hs, _⟩
  have hn : status (Emptied exOne) ⟨4, 0, -1⟩ = none := rfl
  rw [hn] at hs; cases hs

/-- **C82 (violated: sending only what changed).** A published block is not unflagged: it is sent again with every message though nothing changed. -/
theorem C82_resend_violated : ∃ (T : VoxelType (TsdfVoxel Word)) (A : VLayer (TsdfVoxel Word)) (m₁ m₂ : Msg) (p : Publisher),
    publishMap T ⟨true, 1⟩ A 1 false = .ok (some m₁, p) ∧ publishMap T p A 1 false = .ok (some m₂, p) ∧ m₂.blocks ≠ [] := by
  have h : (match publishMap (tsdfType exMerge) ⟨true, 1⟩ exOne 1 false with
    | .ok (some m₁, p) => decide (p = ⟨true, 1⟩ ∧ m₁.blocks ≠ [])
    | _ => false) = true := by decide +kernel
  split at h
  · rename_i m₁ p hw
    obtain ⟨hp, hm⟩ := of_decide_eq_true h
    subst hp
    exact ⟨tsdfType exMerge, exOne, m₁, m₁, _, hw, hw, hm⟩
  · cases h

/-! ### The server of both maps -/

/-- **C82 (violated: the TSDF map of an ESDF server).** If the ESDF map is not to be published, the TSDF map is not published either, whatever its setting. -/
theorem C82_esdf_silent_violated (T : VoxelType V) (E : VoxelType W) (pt pe : Publisher) (A : VLayer V) (B : VLayer W) (nt ne : ℕ) (reset : Bool)
    (h : pe.enabled = false) : publishMaps T E pt pe A B nt ne reset = .ok ((none, pt), (none, pe)) := by
  unfold publishMaps
  rw [if_pos h]

example : (publishMap (tsdfType exMerge) ⟨true, 0⟩ exOne 1 false).bind (fun r => .ok (r.1.isSome)) = .ok true ∧
    (⟨false, 0⟩ : Publisher).enabled = false := by decide +kernel

theorem mapMsg_empty (T : VoxelType V) (A : VLayer V) (r : Bool) :
    mapMsg T (removeAllBlocks A) r = .ok ⟨.fin A.cfg.voxelSize, A.cfg.vps % 2 ^ 32, T.name, if r then 2 else 0, []⟩ := by
  cases r <;> rfl

theorem publish_empty (T : VoxelType V) (A : VLayer V) (p : Publisher) (he : p.enabled = true) (n : ℕ) (hn : 0 < n) (reset : Bool) :
    publishMap T p (removeAllBlocks A) n reset =
      .ok (some ⟨.fin A.cfg.voxelSize, A.cfg.vps % 2 ^ 32, T.name, if resets p n reset then 2 else 0, []⟩, ⟨true, n⟩) := by
  unfold publishMap
  rw [if_neg (by rw [he]; decide), if_pos hn, mapMsg_empty, Outcome.bind_ok, ← he]
  rfl

theorem receive_empty {T : VoxelType V} {ar : Arith} (har : ar.Faithful) {C : VLayer V} (wc : WellFormed C) (act : ℕ) (ha : act = 0 ∨ act = 2) :
    mapCallback T ar ⟨.fin C.cfg.voxelSize, C.cfg.vps % 2 ^ 32, T.name, act, []⟩ C = .ok (if act = 2 then Emptied C else C) := by
  have hs := sizes_agree (V := V) har wc (B := C) rfl T.name act []
  unfold mapCallback deserializeMsg deserializeLayer
  rw [if_neg (by simp), hs]
  rcases ha with rfl | rfl
  · rfl
  · rfl

/-- **C82 (clearing both maps).** With both maps published and subscribers there already, clearing the server sends two messages for each map; the ESDF messages
make every subscriber's ESDF map empty, but (violated) the TSDF messages leave every subscriber's TSDF map as it is. -/
theorem C82_esdf_clear_violated (T : VoxelType V) (E : VoxelType W) {ar : Arith} (har : ar.Faithful) (A : VLayer V) (B : VLayer W) (nt ne : ℕ) (ht : 0 < nt) (he : 0 < ne)
    {C : VLayer V} (wc : WellFormed C) (hc : C.cfg = A.cfg) {D : VLayer W} (wd : WellFormed D) (hd : D.cfg = B.cfg) :
    ∃ mt me, clearBoth T E ⟨true, nt⟩ ⟨true, ne⟩ A B nt ne = .ok ([some mt, some mt], [some me, some me], ⟨true, nt⟩, ⟨true, ne⟩) ∧
      mapCallback T ar mt C = .ok C ∧ mapCallback E ar me D = .ok (Emptied D) := by
  refine ⟨⟨.fin A.cfg.voxelSize, A.cfg.vps % 2 ^ 32, T.name, 0, []⟩, ⟨.fin B.cfg.voxelSize, B.cfg.vps % 2 ^ 32, E.name, 2, []⟩, ?_, ?_, ?_⟩
  · have e1 := publish_empty T A ⟨true, nt⟩ rfl nt ht false
    have e2 := publish_empty E B ⟨true, ne⟩ rfl ne he true
    rw [show resets ⟨true, nt⟩ nt false = false by simp [resets]] at e1
    rw [show resets ⟨true, ne⟩ ne true = true by simp [resets]] at e2
    have e3 : publishMaps T E ⟨true, nt⟩ ⟨true, ne⟩ (removeAllBlocks A) (removeAllBlocks B) nt ne true =
        .ok ((some ⟨.fin A.cfg.voxelSize, A.cfg.vps % 2 ^ 32, T.name, 0, []⟩, ⟨true, nt⟩), (some ⟨.fin B.cfg.voxelSize, B.cfg.vps % 2 ^ 32, E.name, 2, []⟩, ⟨true, ne⟩)) := by
      unfold publishMaps
      rw [if_neg (by simp), e2, e1]
      rfl
    unfold clearBoth clearPublish
    rw [if_pos rfl, e3]
    simp only [Outcome.bind_ok]
    rw [e3]
    rfl
  · rw [← hc]; exact receive_empty har wc 0 (Or.inl rfl)
  · rw [← hd]; exact receive_empty har wd 2 (Or.inr rfl)

example : WellFormed exSender ∧ exSender.cfg = exOne.cfg ∧ exSender.blocks ≠ [] ∧ (Arith.exact fun q => .fin q).Faithful :=
  ⟨exSender_wf, rfl, by simp [exSender], Arith.exact_faithful _⟩

/-- **C82 (clearing the TSDF server).** A server of the TSDF map alone leaves every subscriber with an empty map. -/
theorem C82_clear (T : VoxelType V) {ar : Arith} (har : ar.Faithful) (A : VLayer V) (p : Publisher) (he : p.enabled = true) (n : ℕ) (hn : 0 < n) {C : VLayer V}
    (wc : WellFormed C) (hc : C.cfg = A.cfg) :
    ∃ m, clear T p A n = .ok (Emptied A, some m, ⟨true, n⟩) ∧ mapCallback T ar m C = .ok (Emptied C) := by
  refine ⟨⟨.fin A.cfg.voxelSize, A.cfg.vps % 2 ^ 32, T.name, 2, []⟩, ?_, ?_⟩
  · unfold clear
    rw [if_pos he, publish_empty T A p he n hn true, show resets p n true = true by simp [resets]]
    rfl
  · rw [← hc]; exact receive_empty har wc 2 (Or.inr rfl)

example : (⟨true, 2⟩ : Publisher).enabled = true ∧ WellFormed exSender ∧ exSender.blocks.length = 2 := ⟨rfl, exSender_wf, rfl⟩

end Vox.MapServer
