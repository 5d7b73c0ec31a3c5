/-
C133: the mesh displays of a visualiser.
-/
import Verif.Lemmas.MeshDisplay
import Verif.Props.MeshMsg

namespace Vox.Props

open MC MeshMsg MeshDisplay Spec

private def triangle : MeshBlock := ⟨⟨0, -1, 12⟩, [0, 6000, 0], [0, 0, 32768], [0, 0, 0], [1, 2, 3], [1, 2, 3], [1, 2, 3]⟩

private def other : MeshBlock := ⟨⟨0, -11, 2⟩, [0, 6000, 0], [0, 0, 32768], [0, 0, 0], [1, 2, 3], [1, 2, 3], [1, 2, 3]⟩

private def gone : MeshBlock := ⟨⟨0, -1, 12⟩, [], [], [], [], [], []⟩

/-- Two displays; the first drops a message, is reset and starts again; the second loses a block. -/
private def tale : List (Event ℚ) :=
  [.message 0 (some 5) ⟨.fin 1, [triangle, other]⟩, .message 1 (some 6) ⟨.fin 1, [triangle, other]⟩, .message 0 none ⟨.fin 1, [gone]⟩,
    .reset 0, .message 1 (some 7) ⟨.fin 1, [gone]⟩, .message 0 (some 8) ⟨.fin 1, [triangle]⟩]

/-- **C133**: names of objects belong to one block of one visual. -/
theorem C133_objectName {i j : Idx} {m n : ℕ} : objectName i m = objectName j n ↔ i = j ∧ m = n :=
  ⟨objectName_inj, fun h => by rw [h.1, h.2]⟩

example : objectName ⟨1, -2, 30⟩ 4 = "1 -2 30 4".toList ∧ objectName ⟨1, -23, 0⟩ 4 = "1 -23 0 4".toList := by
  decide +kernel

/-- **C133**: as long as fewer than 2³² events have happened and blocks can be drawn, no message fails: `createManualObject` is never given a
name that exists. The scene then has exactly the objects of the visuals that exist, each once. The bound is necessary, see
`C133_names_violated`. -/
theorem C133_names_partial {P : Type} {origin : P} {es : List (Event P)} (hn : es.length < 2 ^ 32) (hd : Drawable es) :
    ∃ s, run origin es = .ok s ∧ s.names.Nodup ∧
      (∀ c, c ∈ s.names ↔ ∃ k v i m, s.visuals k = some v ∧ v.shown.lookup i = some m ∧ c = objectName i v.number) ∧
      ∀ k l v w, s.visuals k = some v → s.visuals l = some w → v.number = w.number → k = l := by
  obtain ⟨s, hs, t⟩ := steps_tidy (origin := origin) (n := 0) (by omega) hd (start_tidy P)
  refine ⟨s, hs, t.nodup, fun c => ?_, t.apart⟩
  rw [t.mem c]
  constructor
  · rintro ⟨k, v, i, h1, h2, h3⟩
    obtain ⟨m, hm⟩ := lookup_keys.2 h2
    exact ⟨k, v, i, m, h1, hm, h3⟩
  · rintro ⟨k, v, i, m, h1, h2, h3⟩
    exact ⟨k, v, i, h1, lookup_keys.1 ⟨m, h2⟩, h3⟩

private theorem tale_drawable : Drawable tale := by
  intro k p m hm b hb
  have h1 : ∃ x, drawn (.fin 1) triangle = .ok x := by
    have : (match drawn (.fin 1) triangle with | .ok _ => true | _ => false) = true := by decide +kernel
    revert this
    cases drawn (.fin 1) triangle <;> simp
  have h2 : ∃ x, drawn (.fin 1) other = .ok x := by
    have : (match drawn (.fin 1) other with | .ok _ => true | _ => false) = true := by decide +kernel
    revert this
    cases drawn (.fin 1) other <;> simp
  have h3 : ∃ x, drawn (.fin 1) gone = .ok x := ⟨_, drawn_empty _ rfl⟩
  simp only [tale, List.mem_cons, Event.message.injEq, List.not_mem_nil, or_false, reduceCtorEq, false_or, Option.some.injEq, and_false,
    false_and] at hm
  rcases hm with ⟨-, -, rfl⟩ | ⟨-, -, rfl⟩ | ⟨-, -, rfl⟩ | ⟨-, -, rfl⟩ <;>
    simp only [List.mem_cons, List.not_mem_nil, or_false] at hb <;> (try rcases hb with rfl | rfl) <;> assumption

example : tale.length < 2 ^ 32 ∧ Drawable tale := ⟨by decide, tale_drawable⟩

example : (match run 0 tale with
    | .ok s => decide (s.names = ["0 -1 12 2".toList, "0 -11 2 1".toList] ∧ s.nodes = 3)
    | _ => false) = true := by decide +kernel

/-- **C133**: a display that has placed no message since it was last reset has no visual. Otherwise its frame has the pose found for the last
message placed, and at every block the picture of the last block sent there (nothing if it was empty or never sent). -/
theorem C133_shown {P : Type} {origin : P} {es : List (Event P)} {s : Scene P} (h : run origin es = .ok s) (k : ℕ) :
    (heard k es = [] → s.visuals k = none) ∧
    ∀ p m t, heard k es = (p, m) :: t → ∃ v, s.visuals k = some v ∧ v.pose = p ∧
      ∀ i, lastPicture i (heard k es) = .ok (visible v.shown i) := by
  have := steps_showing (k := k) h (h := []) rfl
  rw [← heard_eq] at this
  unfold Showing at this
  rcases hv : s.visuals k with _ | v
  · rw [hv] at this
    refine ⟨fun _ => rfl, fun p m t e => ?_⟩
    simp only at this
    rw [this] at e
    cases e
  · rw [hv] at this
    obtain ⟨⟨m', t', e'⟩, hp⟩ := this
    refine ⟨fun e => ?_, fun p m t e => ⟨v, rfl, ?_, hp⟩⟩
    · rw [e'] at e
      cases e
    · rw [e'] at e
      exact congrArg (·.1) (List.cons.inj e).1

example : (heard 0 tale).map (·.1) = [8] ∧ (heard 1 tale).map (·.1) = [7, 6] ∧ (heard 2 tale).length = 0 ∧
    (match lastPicture ⟨0, -1, 12⟩ (heard 1 tale), lastPicture ⟨0, -11, 2⟩ (heard 1 tale) with
    | .ok a, .ok b => decide (a.vertices.length = 0 ∧ b.vertices.length = 3)
    | _, _ => false) = true := by decide +kernel

/-- **C133** with C74: a display that has a transform for every message of its sender and is not reset shows, after every message, exactly what the
sender has, in the pose found for that message, whatever other displays of the process do. -/
theorem C133_follows {P : Type} {edge inv : Fl} {mode : ColorMode} {origin p : P} {k : ℕ} {es : List (Joint P)} {st : MeshInt.MeshMap × Scene P}
    (ho : ∀ e, Joint.other e ∈ es → e.display ≠ k)
    (h : (es ++ [Joint.here .send p]).foldlM (joint edge inv mode origin k) ([], Scene.start P) = .ok st) :
    ∃ v, st.2.visuals k = some v ∧ v.pose = p ∧ ∀ i, picture edge inv mode st.1 i = .ok (visible v.shown i) := by
  rw [List.foldlM_append] at h
  obtain ⟨s1, h1, h⟩ := Outcome.bind_eq_ok.1 h
  rw [List.foldlM_cons] at h
  obtain ⟨s2, h2, h⟩ := Outcome.bind_eq_ok.1 h
  obtain rfl := Outcome.ok.inj h
  obtain ⟨ms, hms⟩ := joints h1 ho
  have hl := joint_here h2
  have hv : ∃ v, s2.2.visuals k = some v ∧ v.pose = p := by
    unfold joint at h2
    obtain ⟨r, hr, h2⟩ := Outcome.bind_eq_ok.1 h2
    obtain ⟨s, hs, h2⟩ := Outcome.bind_eq_ok.1 h2
    obtain rfl := Outcome.ok.inj h2
    exact (message_shown hs).2
  obtain ⟨v, hv, hp⟩ := hv
  refine ⟨v, hv, hp, ?_⟩
  have := C74_sync (es := ms) (st := (s2.1, shownAt s2.2 k)) (edge := edge) (inv := inv) (mode := mode) (by
    rw [List.foldlM_append]
    change (ms.foldlM _ (([] : MeshInt.MeshMap), shownAt (Scene.start P) k) >>= _) = _
    rw [hms, Outcome.bind_ok, List.foldlM_cons, hl]
    rfl)
  intro i
  rw [this i]
  unfold shownAt
  rw [hv]

private def play : List (Joint ℚ) :=
  [.here (.store ⟨0, 0, 0⟩ ⟨[⟨.fin (1 / 4), .fin (1 / 4), .fin (1 / 4)⟩, ⟨.fin (3 / 4), .fin (1 / 4), .fin (1 / 4)⟩,
    ⟨.fin (1 / 4), .fin (3 / 4), .fin (1 / 4)⟩], [0, 1, 2], [], [⟨1, 2, 3, 255⟩, ⟨1, 2, 3, 255⟩, ⟨1, 2, 3, 255⟩], true⟩) 0,
    .other (.message 1 (some 4) ⟨.fin 1, [triangle]⟩), .here .send 5, .here (.allocate ⟨1, 0, 0⟩) 0, .other (.reset 1)]

example : (∀ e, Joint.other e ∈ play → e.display ≠ 0) ∧
    (match (play ++ [Joint.here .send 6]).foldlM (joint (.fin 1) (.fin 1) .color 0 0) ([], Scene.start ℚ) with
    | .ok st => match st.2.visuals 0 with
      | some v => decide (v.pose = 6 ∧ (visible v.shown ⟨0, 0, 0⟩).vertices.length = 3 ∧ st.2.names.length = 1)
      | none => false
    | _ => false) = true := by
  refine ⟨?_, by decide +kernel⟩
  intro e he
  simp only [play, List.mem_cons, List.not_mem_nil, or_false, reduceCtorEq, false_or, Joint.other.injEq] at he
  rcases he with rfl | rfl <;> decide

/-- **C133** violated: without the hypothesis that the display is not reset, `C133_follows` fails. A reset (voxblox_mesh_display.cc:19-22) is unknown
to the sender, which sends only blocks that changed: the blocks shown before are missing from the next messages. -/
theorem C133_reset_violated : ∃ (es : List (Joint ℚ)) (st : MeshInt.MeshMap × Scene ℚ) (v : Visual ℚ) (m : MC.Mesh),
    Joint.other (.reset 0) ∈ es ∧ (es ++ [Joint.here .send 6]).foldlM (joint (.fin 1) (.fin 1) .color 0 0) ([], Scene.start ℚ) = .ok st ∧
    st.2.visuals 0 = some v ∧ picture (.fin 1) (.fin 1) .color st.1 ⟨0, 0, 0⟩ = .ok m ∧ m.vertices.length = 3 ∧ (visible v.shown ⟨0, 0, 0⟩).vertices = [] := by
  have key : (match ((play ++ [Joint.other (.reset 0)]) ++ [Joint.here .send 6]).foldlM (joint (.fin 1) (.fin 1) .color 0 0) ([], Scene.start ℚ) with
    | .ok st => match st.2.visuals 0, picture (.fin 1) (.fin 1) .color st.1 ⟨0, 0, 0⟩ with
      | some v, .ok m => decide (m.vertices.length = 3 ∧ (visible v.shown ⟨0, 0, 0⟩).vertices = [])
      | _, _ => false
    | _ => false) = true := by decide +kernel
  split at key
  · rename_i st hst
    split at key
    · rename_i v m hv hm
      exact ⟨_, st, v, m, by simp, hst, hv, hm, of_decide_eq_true key⟩
    · cases key
  · cases key

private def sender : MeshInt.MeshMap :=
  [(⟨0, 0, 0⟩, ⟨[⟨.fin (1 / 4), .fin (1 / 4), .fin (1 / 4)⟩, ⟨.fin (3 / 4), .fin (1 / 4), .fin (1 / 4)⟩,
    ⟨.fin (1 / 4), .fin (3 / 4), .fin (1 / 4)⟩], [0, 1, 2], [], [⟨1, 2, 3, 255⟩, ⟨1, 2, 3, 255⟩, ⟨1, 2, 3, 255⟩], true⟩)]

private def sentBy (ml : MeshInt.MeshMap) : Msg × MeshInt.MeshMap :=
  match generateMsg (.fin 1) (.fin 1) .color ml with
  | .ok r => r
  | _ => (⟨.fin 1, []⟩, [])

/-- **C133**, violation: a message for which there is no transform is dropped, and the blocks in it are not sent again: though every message
after it is placed, the display never shows a mesh that the sender has. The same after a reset of the display. -/
theorem C133_dropped_violated : ∃ m₁ m₂ : Msg, ∃ ml₁ ml₂ : MeshInt.MeshMap,
    generateMsg (.fin 1) (.fin 1) .color sender = .ok (m₁, ml₁) ∧ generateMsg (.fin 1) (.fin 1) .color ml₁ = .ok (m₂, ml₂) ∧
    (match picture (.fin 1) (.fin 1) .color ml₂ ⟨0, 0, 0⟩ with
      | .ok x => decide (x.vertices.length = 3)
      | _ => false) = true ∧
    (∀ es ∈ [[Event.message 0 none m₁, .message 0 (some 0) m₂], [.message 0 (some 0) m₁, .reset 0, .message 0 (some 0) m₂]],
      (match run (0 : ℕ) es with
      | .ok s => match s.visuals 0 with
        | some v => decide (v.shown = [])
        | none => false
      | _ => false) = true) :=
  ⟨(sentBy sender).1, (sentBy (sentBy sender).2).1, (sentBy sender).2, (sentBy (sentBy sender).2).2, by decide +kernel, by decide +kernel,
    by decide +kernel, by decide +kernel⟩

/-- **C133**, violation: the frame node of a visual is not destroyed with it. A display that is reset after each of `n` messages leaves `n`
nodes behind, though there is no visual and no object. -/
theorem C133_nodes_violated {P : Type} (origin p : P) (edge : Fl) (n : ℕ) :
    ∃ s, run origin (rounds 0 p ⟨edge, []⟩ n) = .ok s ∧ s.nodes = n ∧ s.names = [] ∧ ∀ k, s.visuals k = none :=
  ⟨_, rounds_run origin p 0 edge (Scene.start P) rfl (by simp [Scene.start]) n, by simp [Scene.start], rfl, fun _ => rfl⟩

example : (rounds 0 (5 : ℚ) ⟨.fin 1, []⟩ 3).length = 6 := rfl

private def afterFirst : Outcome (Scene ℕ) := step 0 (Scene.start ℕ) (.message 0 (some 0) ⟨.fin 1, [triangle]⟩)

private theorem first_ok : ∃ m, drawn (.fin 1) triangle = .ok m ∧
    afterFirst = .ok ⟨1, [objectName triangle.index 0], 1, Function.update (fun _ => none) 0 (some ⟨0, [(triangle.index, m)], 0⟩)⟩ := by
  have h1 : ∃ x, drawn (.fin 1) triangle = .ok x := by
    have : (match drawn (.fin 1) triangle with | .ok _ => true | _ => false) = true := by decide +kernel
    revert this
    cases drawn (.fin 1) triangle <;> simp
  obtain ⟨m, hm⟩ := h1
  refine ⟨m, hm, ?_⟩
  unfold afterFirst step message Scene.visual Scene.create
  simp only [Scene.start, List.foldlM_cons, List.foldlM_nil, showBlock, receiveBlock, hm, Outcome.bind_ok, List.lookup_nil]
  rfl

private theorem wrapped {N : ℕ} (hN : (1 + N) % 2 ^ 32 = 0) :
    Drawable ([Event.message 0 (some 0) ⟨.fin 1, [triangle]⟩] ++ (rounds 1 0 ⟨.fin 1, []⟩ N ++
      [.message 1 (some 0) ⟨.fin 1, [triangle]⟩])) ∧
    run (0 : ℕ) ([.message 0 (some 0) ⟨.fin 1, [triangle]⟩] ++ (rounds 1 0 ⟨.fin 1, []⟩ N ++
      [.message 1 (some 0) ⟨.fin 1, [triangle]⟩])) = .fatal := by
  obtain ⟨m, hm, h1⟩ := first_ok
  constructor
  · have hr : ∀ n k p (x : Msg), Event.message k (some p) x ∈ rounds 1 0 ⟨.fin 1, []⟩ n → x = ⟨.fin 1, []⟩ := by
      intro n
      induction n with
      | zero => intro k p x h; cases h
      | succ n ih =>
        intro k p x h
        rw [rounds, List.mem_append] at h
        rcases h with h | h
        · exact ih k p x h
        · simp only [List.mem_cons, Event.message.injEq, List.not_mem_nil, or_false, reduceCtorEq] at h
          exact h.2.2
    intro k p x hx b hb
    simp only [List.mem_append, List.mem_cons, List.not_mem_nil, or_false, Event.message.injEq] at hx
    rcases hx with ⟨-, -, rfl⟩ | hx | ⟨-, -, rfl⟩
    · simp only [List.mem_cons, List.not_mem_nil, or_false] at hb
      exact ⟨m, by rw [hb, hm]⟩
    · rw [hr _ _ _ _ hx] at hb
      cases hb
    · simp only [List.mem_cons, List.not_mem_nil, or_false] at hb
      exact ⟨m, by rw [hb, hm]⟩
  · unfold run
    rw [List.foldlM_append, List.foldlM_cons]
    change ((afterFirst >>= pure) >>= _) = _
    rw [h1]
    simp only [pure, Outcome.bind_ok]
    rw [List.foldlM_append, rounds_run 0 0 1 (.fin 1) _ rfl (by norm_num) N]
    simp only [Outcome.bind_ok, List.foldlM_cons, List.foldlM_nil, step, message, Scene.visual, Scene.create]
    rw [show Function.update (fun _ => none) 0 (some (⟨0, [(triangle.index, m)], 0⟩ : Visual ℕ)) 1 = none from rfl]
    simp only [showBlock, receiveBlock, hm, Outcome.bind_ok, List.lookup_nil]
    rw [hN]
    rfl

/-- **C133**, violation: the instance number is an `unsigned int` and wraps. A display that lives while another is reset 2³² - 1 times shares
its number with the next visual, and a message with the same block fails on the duplicate name. -/
theorem C133_names_violated :
    Drawable ([Event.message 0 (some 0) ⟨.fin 1, [triangle]⟩] ++ (rounds 1 0 ⟨.fin 1, []⟩ (2 ^ 32 - 1) ++
      [.message 1 (some 0) ⟨.fin 1, [triangle]⟩])) ∧
    run (0 : ℕ) ([.message 0 (some 0) ⟨.fin 1, [triangle]⟩] ++ (rounds 1 0 ⟨.fin 1, []⟩ (2 ^ 32 - 1) ++
      [.message 1 (some 0) ⟨.fin 1, [triangle]⟩])) = .fatal :=
  wrapped (by norm_num)

end Vox.Props
