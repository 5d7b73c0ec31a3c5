/-
C80: poses looked up in a queue of stamped transforms. C81: the queue of point clouds of the server.
-/
import Verif.Lemmas.Transformer

namespace Vox.Props

open Vox.Tf Vox.Spec Vox.Ieee

/-- Poses on a line, for examples: the product adds, and blending is linear. -/
def lineOps : PoseOps ℚ := ⟨(· + ·), (- ·), fun r a b => match r with | .fin r => a + r * (b - a) | _ => 0⟩

/-- A transformer with three transforms, a tolerance of 10 ns and non-trivial static transforms. -/
def lineTf : Transformer ℚ := ⟨10, 1, 3, [⟨1000, 0⟩, ⟨2000, 100⟩, ⟨3000, 400⟩]⟩

/-- **C80 (what is returned).** A successful lookup returns the transform chain of an entry whose stamp differs by less than the tolerance from the time asked
for, the first such; or, if every entry up to there is too old, that of a blend of two neighbouring entries around the time, weighted by the time passed since
the older one. -/
theorem C80_found {P : Type} (A : Arith) (ops : PoseOps P) (tr : Transformer P) (time : ℤ) {p : P} (h : (tr.lookup A ops time).1 = some p) :
    (∃ pre e suf, tr.queue = pre ++ e :: suf ∧ |e.stamp - time| < tr.tolerance ∧ (∀ y ∈ pre, y.stamp ≤ time ∧ y.stamp + tr.tolerance ≤ time) ∧
      p = chained ops tr e.pose) ∨
    (∃ pre a b suf, tr.queue = pre ++ a :: b :: suf ∧ (∀ y ∈ pre ++ [a], y.stamp ≤ time ∧ y.stamp + tr.tolerance ≤ time) ∧
      time < b.stamp ∧ time + tr.tolerance ≤ b.stamp ∧
      p = chained ops tr (ops.blend (ratio A (time - a.stamp) (b.stamp - time)) a.pose b.pose)) := by
  rw [lookup_fst] at h
  rcases resolve_cases A ops tr.tolerance time tr.queue with ⟨_, e⟩ | ⟨d, x, xs, e1, hd, hx, e⟩ | ⟨x, xs, e1, hx, e⟩ | ⟨d, a, x, xs, e1, hd, ha, hx, e⟩
  · rw [e] at h; cases h
  · left
    rw [e] at h
    refine ⟨d, x, xs, e1, ?_, ?_, (Option.some.inj h).symm⟩
    · unfold Near at hx; rw [abs_lt]; omega
    · intro y hy; have := hd y hy; unfold Old at this; omega
  · rw [e] at h; cases h
  · right
    rw [e] at h
    refine ⟨d, a, x, xs, e1, ?_, hx.1, by omega, (Option.some.inj h).symm⟩
    intro y hy
    rcases List.mem_append.1 hy with hy | hy
    · have := hd y hy; unfold Old at this; omega
    · rw [List.mem_singleton.1 hy]; unfold Old at ha; omega

example : (lineTf.lookup (Arith.exact .fin) lineOps 1995).1 = some (100 - 1 + 3) ∧ (lineTf.lookup (Arith.exact .fin) lineOps 2500).1 = some (250 - 1 + 3) := by
  decide +kernel

/-- **C80 (when it fails).** With stamps in order and a tolerance that is not negative, a lookup fails exactly if every entry is too new or every entry is too
old by at least the tolerance. -/
theorem C80_fails_iff {P : Type} (A : Arith) (ops : PoseOps P) (tr : Transformer P) (hs : Sorted tr.queue) (htol : 0 ≤ tr.tolerance) (time : ℤ) :
    (tr.lookup A ops time).1 = none ↔
      (∀ e ∈ tr.queue, time < e.stamp ∧ time + tr.tolerance ≤ e.stamp) ∨ (∀ e ∈ tr.queue, e.stamp + tr.tolerance ≤ time) := by
  rw [lookup_fst]
  rcases resolve_cases A ops tr.tolerance time tr.queue with ⟨h, e⟩ | ⟨d, x, xs, e1, hd, hx, e⟩ | ⟨x, xs, e1, hx, e⟩ | ⟨d, a, x, xs, e1, hd, ha, hx, e⟩
  · rw [e]
    simp only [Option.map_none, true_iff]
    right
    intro y hy
    have := h y hy
    unfold Old at this; omega
  · rw [e]
    simp only [Option.map_some, reduceCtorEq, false_iff, not_or]
    unfold Near at hx
    constructor
    · intro h; have := h x (by rw [e1]; simp); omega
    · intro h; have := h x (by rw [e1]; simp); omega
  · rw [e]
    simp only [Option.map_none, true_iff]
    left
    intro y hy
    unfold Sorted at hs
    rw [e1] at hy hs
    rcases List.mem_cons.1 hy with rfl | hy
    · omega
    · have := (List.pairwise_cons.1 hs).1 y hy; omega
  · rw [e]
    simp only [Option.map_some, reduceCtorEq, false_iff, not_or]
    unfold Old at ha
    constructor
    · intro h; have := h a (by rw [e1]; simp); omega
    · intro h; have := h x (by rw [e1]; simp); omega

example : Sorted lineTf.queue ∧ 0 ≤ lineTf.tolerance ∧ (lineTf.lookup (Arith.exact .fin) lineOps 990).1 = none ∧ (lineTf.lookup (Arith.exact .fin) lineOps 991).1 ≠ none ∧
    (lineTf.lookup (Arith.exact .fin) lineOps 3009).1 ≠ none ∧ (lineTf.lookup (Arith.exact .fin) lineOps 3010).1 = none := by
  refine ⟨?_, by decide, ?_⟩
  · simp [Sorted, lineTf]
  · decide +kernel

/-- **C80 (interpolation).** With stamps in order, a blend is taken only if no entry is within the tolerance, and its two entries are the closest ones on either
side. -/
theorem C80_neighbours {P : Type} (A : Arith) (ops : PoseOps P) (tr : Transformer P) (hs : Sorted tr.queue) (time : ℤ) {pre suf : List (Stamped P)}
    {a b : Stamped P} (hq : tr.queue = pre ++ a :: b :: suf) (ha : a.stamp ≤ time ∧ a.stamp + tr.tolerance ≤ time) (hb : time < b.stamp ∧ time + tr.tolerance ≤ b.stamp) :
    (tr.lookup A ops time).1 = some (chained ops tr (ops.blend (ratio A (time - a.stamp) (b.stamp - time)) a.pose b.pose)) ∧
    ∀ e ∈ tr.queue, e.stamp ≤ a.stamp ∨ b.stamp ≤ e.stamp := by
  unfold Sorted at hs
  rw [hq] at hs
  obtain ⟨h1, h2, h3⟩ := List.pairwise_append.1 hs
  have hpre : ∀ y ∈ pre, y.stamp ≤ a.stamp := fun y hy => h3 y hy a (by simp)
  constructor
  · rw [lookup_fst, hq, resolve_between (fun y hy => ?_) ⟨ha.1, by omega⟩ ⟨hb.1, by omega⟩]
    · rfl
    · have := hpre y hy
      unfold Old; omega
  · intro e he
    rw [hq] at he
    rcases List.mem_append.1 he with he | he
    · exact Or.inl (hpre e he)
    · rcases List.mem_cons.1 he with rfl | he
      · exact Or.inl (le_refl _)
      · rcases List.mem_cons.1 he with rfl | he
        · exact Or.inr (le_refl _)
        · exact Or.inr ((List.pairwise_cons.1 (List.pairwise_cons.1 h2).2).1 e he)

example : lineTf.queue = [⟨1000, 0⟩] ++ ⟨2000, 100⟩ :: ⟨3000, 400⟩ :: [] ∧ (2000 : ℤ) + lineTf.tolerance ≤ 2300 ∧ 2300 + lineTf.tolerance ≤ 3000 := by decide

/-- **C80 (the weight).** In `float` arithmetic the weight of the blend lies between nought and one, and differs from the exact fraction of the time passed by
less than a four-millionth, for stamps less than 2^63 nanoseconds apart. -/
theorem C80_ratio {a time b : ℤ} (ha : a ≤ time) (hb : time < b) (hrange : b - a < 2 ^ 63) :
    ∃ r : ℚ, ratio float32 (time - a) (b - time) = .fin r ∧ 0 ≤ r ∧ r ≤ 1 ∧ |r - ((time : ℚ) - a) / ((b : ℚ) - a)| ≤ 1 / 2 ^ 22 := by
  obtain ⟨r, h1, h2, h3, h4⟩ := ratio_float (o := time - a) (n := b - time) (by omega) (by omega) (by omega)
  refine ⟨r, h1, h2, h3, ?_⟩
  push_cast at h4
  rwa [show (time : ℚ) - a + (b - time) = b - a by ring] at h4

example : (1700000000000000000 : ℤ) ≤ 1700000000033333333 ∧ (1700000000033333333 : ℤ) < 1700000000100000000 ∧
    (1700000000100000000 : ℤ) - 1700000000000000000 < 2 ^ 63 := by norm_num

/-- **C80 (forgetting does no harm).** If the times asked for never decrease, forgetting old transforms changes no answer: each answer is what it would be with
all transforms ever received, in whatever order they arrived. -/
theorem C80_forgetting {P : Type} (A : Arith) (ops : PoseOps P) (tr : Transformer P) (es : List (TfEvent P)) (h : (asked es).Pairwise (· ≤ ·)) :
    answers A ops tr es = fullAnswers A ops tr es := by
  have hf : ∃ f : ℤ, (f :: asked es).Pairwise (· ≤ ·) := by
    cases hq : asked es with
    | nil => exact ⟨0, by simp⟩
    | cons t ts =>
      rw [hq] at h
      refine ⟨t, List.pairwise_cons.2 ⟨?_, h⟩⟩
      intro y hy
      rcases List.mem_cons.1 hy with rfl | hy
      · exact le_refl _
      · exact (List.pairwise_cons.1 h).1 y hy
  obtain ⟨f, hf⟩ := hf
  exact answers_eq es (Alike.refl f tr) hf

example : (asked [.ask 1500, .transform (⟨4000, 900⟩ : Stamped ℚ), .ask 2500, .ask 3500]).Pairwise (· ≤ ·) ∧
    answers (Arith.exact .fin) lineOps lineTf [.ask 1500, .transform ⟨4000, 900⟩, .ask 2500, .ask 3500] = [some 52, some 252, some 652] ∧
    (lineTf.lookup (Arith.exact .fin) lineOps 2500).2.queue.length = 2 := by
  refine ⟨by simp [asked], ?_, ?_⟩ <;> decide +kernel

/-- **C80 (failure changes nothing).** -/
theorem C80_failed {P : Type} (A : Arith) (ops : PoseOps P) (tr : Transformer P) (time : ℤ) (h : (tr.lookup A ops time).1 = none) :
    (tr.lookup A ops time).2 = tr := by
  unfold Transformer.lookup at h ⊢
  split at h
  · cases h
  · rfl

example : (lineTf.lookup (Arith.exact .fin) lineOps 5000).1 = none := by decide +kernel

/-- **C80 (violated: the closest transform).** A transform for exactly the time asked for is not used if one within the tolerance comes before it. -/
theorem C80_closest_violated : ∃ (tr : Transformer ℚ) (time : ℤ) (e : Stamped ℚ), Sorted tr.queue ∧ e ∈ tr.queue ∧ e.stamp = time ∧
    (tr.lookup (Arith.exact .fin) lineOps time).1 ≠ some (chained lineOps tr e.pose) ∧ (tr.lookup (Arith.exact .fin) lineOps time).1 ≠ none :=
  ⟨⟨1000000, 0, 0, [⟨1000500000, 1⟩, ⟨1001000000, 2⟩]⟩, 1001000000, ⟨1001000000, 2⟩, by simp [Sorted], by decide, rfl, by decide +kernel, by decide +kernel⟩

/-- **C80 (violated: any time in range).** After a pose was given out, an earlier time is refused though its transforms had arrived. -/
theorem C80_backwards_violated : ∃ (tr : Transformer ℚ) (t t' : ℤ), Sorted tr.queue ∧ t' < t ∧ (tr.lookup (Arith.exact .fin) lineOps t').1 ≠ none ∧
    answers (Arith.exact .fin) lineOps tr [.ask t, .ask t'] ≠ fullAnswers (Arith.exact .fin) lineOps tr [.ask t, .ask t'] ∧
    ((tr.lookup (Arith.exact .fin) lineOps t).2.lookup (Arith.exact .fin) lineOps t').1 = none :=
  ⟨lineTf, 2500, 1500, by simp [Sorted, lineTf], by decide, by decide +kernel, by decide +kernel, by decide +kernel⟩

/-- **C80 (violated: any order of arrival).** If transforms arrive out of order, a time is refused though a transform for exactly that time has arrived. -/
theorem C80_order_violated : ∃ (tr : Transformer ℚ) (e : Stamped ℚ), e ∈ tr.queue ∧ (tr.lookup (Arith.exact .fin) lineOps e.stamp).1 = none :=
  ⟨⟨10, 0, 0, [⟨2000, 1⟩, ⟨1000, 2⟩]⟩, ⟨1000, 2⟩, by decide, by decide +kernel⟩

/-- **C80 (violated: no tolerance).** With a tolerance of nought the latest transform is not even found for its own time. -/
theorem C80_zero_tolerance_violated : ∃ (tr : Transformer ℚ) (e : Stamped ℚ), Sorted tr.queue ∧ tr.tolerance = 0 ∧ e ∈ tr.queue ∧
    (tr.lookup (Arith.exact .fin) lineOps e.stamp).1 = none :=
  ⟨{ lineTf with tolerance := 0 }, ⟨3000, 400⟩, by simp [Sorted, lineTf], rfl, by decide, by decide +kernel⟩

/-! ### The queue of point clouds -/

/-- **C81 (order).** Whatever arrives, and whatever the lookups give, the clouds integrated followed by those still waiting are a subsequence of those that
waited before followed by the clouds that arrived long enough after the previous one taken: none is integrated twice, and the order of arrival is kept. -/
theorem C81_order {P : Type} (look : Transformer P → ℤ → Option P × Transformer P) (b : Inbox) (tr : Transformer P) (es : List (SrvEvent P)) :
    ((serve look b tr es).1.map Prod.fst ++ (serve look b tr es).2.1.queue).Sublist (b.queue ++ taken b.minInterval b.last (clouds es)) :=
  serve_sublist look es b tr

/-- **C81 (spacing).** From an empty queue, the clouds integrated are a subsequence of the arrivals, and are more than the minimum interval apart. -/
theorem C81_spacing {P : Type} (look : Transformer P → ℤ → Option P × Transformer P) (b : Inbox) (hb : b.queue = []) (hi : 0 ≤ b.minInterval) (tr : Transformer P)
    (es : List (SrvEvent P)) :
    ((serve look b tr es).1.map Prod.fst).Sublist (clouds es) ∧
    ((serve look b tr es).1.map Prod.fst).Pairwise (fun x y => b.minInterval < y.stamp - x.stamp) ∧
    ∀ c ∈ (serve look b tr es).1.map Prod.fst, b.minInterval < c.stamp - b.last := by
  have h := serve_sublist look es b tr
  rw [hb, List.nil_append] at h
  have h' := (List.sublist_append_left _ _).trans h
  have hp : ((⟨b.last, 0⟩ : Cloud) :: taken b.minInterval b.last (clouds es)).Pairwise (fun x y => b.minInterval < y.stamp - x.stamp) := by
    obtain ⟨h1, h2⟩ := taken_spaced b.minInterval (clouds es) b.last
    have hc : ((⟨b.last, 0⟩ : Cloud) :: taken b.minInterval b.last (clouds es)).IsChain (fun x y => b.minInterval < y.stamp - x.stamp) :=
      List.isChain_cons.2 ⟨fun y hy => h2 y hy, h1⟩
    have : Trans (fun x y : Cloud => b.minInterval < y.stamp - x.stamp) (fun x y : Cloud => b.minInterval < y.stamp - x.stamp)
        (fun x y : Cloud => b.minInterval < y.stamp - x.stamp) :=
      ⟨fun {x y z} h1 h2 => by omega⟩
    exact List.isChain_iff_pairwise.1 hc
  rw [List.pairwise_cons] at hp
  exact ⟨h'.trans (taken_sublist _ _ _), hp.2.sublist h', fun c hc => hp.1 c (h'.subset hc)⟩

example : (⟨100, 0, []⟩ : Inbox).queue = [] ∧ (0 : ℤ) ≤ (⟨100, 0, []⟩ : Inbox).minInterval ∧
    (serve (fun tr t => tr.lookup (Arith.exact .fin) lineOps t) ⟨100, 0, []⟩ lineTf [.cloud ⟨1500, 1⟩, .cloud ⟨1600, 2⟩, .cloud ⟨1601, 3⟩]).1.map Prod.fst =
      [⟨1500, 1⟩, ⟨1601, 3⟩] := by decide +kernel

/-- **C81 (what happens to the clouds waiting).** On each arrival the clouds waiting are integrated from the front up to one without a pose; then at most nine
remain, and clouds are dropped, from the front, only if exactly nine remain. -/
theorem C81_insert {P S : Type} (look : S → ℤ → Option P × S) (b : Inbox) (s : S) (c : Cloud) :
    ∃ dropped, b.queue ++ (if b.minInterval < c.stamp - b.last then [c] else []) = (b.insert look s c).1.map Prod.fst ++ dropped ++ (b.insert look s c).2.1.queue ∧
      (b.insert look s c).2.1.queue.length ≤ 9 ∧ (dropped ≠ [] → (b.insert look s c).2.1.queue.length = 9) := by
  obtain ⟨d, h1, h2⟩ := drain_split look (b.push c).queue s
  have e : (b.push c).queue = b.queue ++ (if b.minInterval < c.stamp - b.last then [c] else []) := by
    unfold Inbox.push Inbox.accepts
    by_cases h : b.minInterval < c.stamp - b.last <;> simp [h]
  exact ⟨d, e ▸ h1, drain_bound look _ s, h2⟩

example : ((⟨0, 19, (List.range 12).map fun (i : ℕ) => ⟨i, i⟩⟩ : Inbox).insert (fun tr t => tr.lookup (Arith.exact .fin) lineOps t) lineTf ⟨20, 99⟩).2.1.queue.map Cloud.content =
    [4, 5, 6, 7, 8, 9, 10, 11, 99] := by decide +kernel

/-- **C81 (nothing is dropped).** While fewer than nine clouds wait, none is dropped. -/
theorem C81_kept {P S : Type} (look : S → ℤ → Option P × S) (b : Inbox) (s : S) (c : Cloud) (h : b.queue.length < 9) :
    b.queue ++ (if b.minInterval < c.stamp - b.last then [c] else []) = (b.insert look s c).1.map Prod.fst ++ (b.insert look s c).2.1.queue := by
  have e : (b.push c).queue = b.queue ++ (if b.minInterval < c.stamp - b.last then [c] else []) := by
    unfold Inbox.push Inbox.accepts
    by_cases h : b.minInterval < c.stamp - b.last <;> simp [h]
  rw [← e]
  refine drain_short look _ s ?_
  rw [e]
  split <;> simp <;> omega

example : ((⟨0, 0, [⟨5, 1⟩]⟩ : Inbox).insert (fun tr t => tr.lookup (Arith.exact .fin) lineOps t) lineTf ⟨1500, 2⟩).1 = [] ∧
    ((⟨0, 0, [⟨1500, 1⟩]⟩ : Inbox).insert (fun tr t => tr.lookup (Arith.exact .fin) lineOps t) lineTf ⟨2500, 2⟩).1 = [(⟨1500, 1⟩, 52), (⟨2500, 2⟩, 252)] := by decide +kernel

/-- **C81 (prompt).** If poses are always available, an accepted cloud is integrated by the call that delivers it, and none waits. -/
theorem C81_prompt {P S : Type} (look : S → ℤ → Option P × S) (hl : ∀ s t, (look s t).1 ≠ none) (b : Inbox) (s : S) (c : Cloud) :
    (b.insert look s c).1.map Prod.fst = b.queue ++ (if b.minInterval < c.stamp - b.last then [c] else []) ∧ (b.insert look s c).2.1.queue = [] := by
  have e : (b.push c).queue = b.queue ++ (if b.minInterval < c.stamp - b.last then [c] else []) := by
    unfold Inbox.push Inbox.accepts
    by_cases h : b.minInterval < c.stamp - b.last <;> simp [h]
  obtain ⟨h1, h2⟩ := drain_all look hl (b.push c).queue s
  exact ⟨e ▸ h1, h2⟩

example : ∀ (s : Unit) (t : ℤ), ((fun (s : Unit) (t : ℤ) => (some t, s)) s t).1 ≠ none := by intro s t; simp

/-- **C81 (poses).** With one kind of clouds, the clouds are integrated with the poses (and at the times) they would be if no transform were ever forgotten. -/
theorem C81_poses {P : Type} (A : Arith) (ops : PoseOps P) (b : Inbox) (hb : b.queue = []) (hi : 0 ≤ b.minInterval) (tr : Transformer P) (es : List (SrvEvent P)) :
    (serve (fun tr t => tr.lookup A ops t) b tr es).1 = (serve (lookupKeeping A ops) b tr es).1 :=
  serve_alike es (Alike.refl b.last tr) ⟨hi, by rw [hb]; exact List.Pairwise.nil, by rw [hb]; simp, by rw [hb]; simp, le_refl _⟩

example : (serve (fun tr t => tr.lookup (Arith.exact .fin) lineOps t) ⟨0, 0, []⟩ lineTf [.cloud ⟨1500, 1⟩, .cloud ⟨3500, 2⟩, .transform ⟨4000, 500⟩, .cloud ⟨3600, 3⟩]).1 =
    [(⟨1500, 1⟩, 52), (⟨3500, 2⟩, 452), (⟨3600, 3⟩, 462)] := by decide +kernel

/-- **C81 (violated: every cloud with a pose is integrated).** A cloud whose pose never becomes known holds up a later one whose pose is known. -/
theorem C81_blocked_violated : ∃ (b : Inbox) (tr : Transformer ℚ) (c₁ c₂ : Cloud), b.queue = [] ∧ (tr.lookup (Arith.exact .fin) lineOps c₂.stamp).1 ≠ none ∧
    (serve (fun tr t => tr.lookup (Arith.exact .fin) lineOps t) b tr [.cloud c₁, .cloud c₂]).1 = [] ∧ b.accepts c₂ = true :=
  ⟨⟨0, 0, []⟩, lineTf, ⟨500, 1⟩, ⟨1500, 2⟩, rfl, by decide +kernel, by decide +kernel, by decide⟩

/-- **C81 (violated: unstamped clouds).** A server that has just started ignores clouds without a stamp, with the default interval of nought, though a pose for
that time is known. -/
theorem C81_unstamped_violated : ∃ (tr : Transformer ℚ), (tr.lookup (Arith.exact .fin) lineOps 0).1 ≠ none ∧
    ∀ (n : ℕ), (serve (fun tr t => tr.lookup (Arith.exact .fin) lineOps t) ⟨0, 0, []⟩ tr (List.replicate n (.cloud ⟨0, 7⟩))).1 = [] := by
  refine ⟨⟨10, 0, 0, [⟨0, 1⟩]⟩, by decide +kernel, ?_⟩
  intro n
  induction n with
  | zero => rfl
  | succ n ih =>
    rw [List.replicate_succ, serve]
    exact ih

/-- **C81 (violated: restarted time).** After the stamps jump back (a recording played again), every cloud is ignored until its stamp passes the latest one seen
before, though its pose is known. -/
theorem C81_restart_violated : ∃ (b : Inbox) (tr : Transformer ℚ), b.queue = [] ∧ ∀ c : Cloud, 1010 ≤ c.stamp → c.stamp ≤ 2990 →
    (tr.lookup (Arith.exact .fin) lineOps c.stamp).1 ≠ none ∧ (serve (fun tr t => tr.lookup (Arith.exact .fin) lineOps t) b tr [.cloud c]).1 = [] := by
  refine ⟨⟨0, 3000, []⟩, lineTf, rfl, ?_⟩
  intro c h1 h2
  constructor
  · intro h
    rw [C80_fails_iff _ _ _ (by simp [Sorted, lineTf]) (by decide)] at h
    rcases h with h | h
    · have := h ⟨1000, 0⟩ (by simp [lineTf]); simp at this; omega
    · have := h ⟨3000, 400⟩ (by simp [lineTf]); simp [lineTf] at this; omega
  · have e : (⟨0, 3000, []⟩ : Inbox).push c = ⟨0, 3000, []⟩ := by
      unfold Inbox.push Inbox.accepts
      rw [if_neg (by simp; omega)]
    simp only [serve, Inbox.insert, e, drain, List.append_nil]

/-- **C81 (violated: two kinds of clouds).** The clouds of free space share the transformer: after a cloud of the other kind with a later stamp, one whose pose
was known before is not integrated. -/
theorem C81_freespace_violated : ∃ (b : Inbox) (tr : Transformer ℚ) (c free : Cloud), b.queue = [] ∧ b.accepts free = true ∧
    (b.insert (fun tr t => tr.lookup (Arith.exact .fin) lineOps t) tr free).1 ≠ [] ∧
    (b.insert (fun tr t => tr.lookup (Arith.exact .fin) lineOps t) (b.insert (fun tr t => tr.lookup (Arith.exact .fin) lineOps t) tr c).2.2 free).1 = [] ∧
    (b.insert (lookupKeeping (Arith.exact .fin) lineOps) (b.insert (lookupKeeping (Arith.exact .fin) lineOps) tr c).2.2 free).1 ≠ [] :=
  ⟨⟨0, 0, []⟩, lineTf, ⟨2500, 1⟩, ⟨1500, 2⟩, rfl, by decide, by decide +kernel, by decide +kernel, by decide +kernel⟩

end Vox.Props
