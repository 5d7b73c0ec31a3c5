import Verif.Model.EvalCloud
import Verif.Spec.EvalCloud
import Verif.Lemmas.MapQuery
import Verif.Lemmas.GridWrite
import Verif.Props.ColorMap

namespace Vox.EvalCloud

open Layer Grid Interp Spec

/-- The verdict of the code for the error of the specification. -/
def verdictOf : Option (Bool × ℚ) → Verdict
  | none => .unknown
  | some (true, d) => .outside d
  | some (false, d) => .measured d

theorem liesIn_gIdx {l : VLayer (TsdfVoxel ℚ)} (wf : WellFormed l) {g : Idx} {p : Pt} (h : LiesIn l g p) : gIdx l p = g :=
  Interp.gIdx_eq wf h

theorem _root_.Vox.Spec.SameField.refl (l : VLayer (TsdfVoxel ℚ)) : SameField l l := ⟨rfl, fun _ => rfl, fun _ => rfl⟩

theorem _root_.Vox.Spec.SameField.trans {a b c : VLayer (TsdfVoxel ℚ)} (h : SameField a b) (k : SameField b c) : SameField a c :=
  ⟨k.1.trans h.1, fun i => (k.2.1 i).trans (h.2.1 i), fun g => (k.2.2 g).trans (h.2.2 g)⟩

theorem _root_.Vox.Spec.SameField.get {l l' : VLayer (TsdfVoxel ℚ)} (h : SameField l l') {g : Idx} {v : TsdfVoxel ℚ} (hv : content l g = some v) :
    ∃ v', content l' g = some v' ∧ v'.distance = v.distance ∧ v'.weight = v.weight := by
  have := h.2.2 g
  rw [hv, Option.map_some, Option.map_eq_some_iff] at this
  obtain ⟨v', h1, h2⟩ := this
  exact ⟨v', h1, (Prod.ext_iff.1 h2).1, (Prod.ext_iff.1 h2).2⟩

theorem _root_.Vox.Spec.SameField.get' {l l' : VLayer (TsdfVoxel ℚ)} (h : SameField l l') {g : Idx} {v : TsdfVoxel ℚ} (hv : content l' g = some v) :
    ∃ v', content l g = some v' ∧ v'.distance = v.distance ∧ v'.weight = v.weight := by
  have := (h.2.2 g).symm
  rw [hv, Option.map_some, Option.map_eq_some_iff] at this
  obtain ⟨v', h1, h2⟩ := this
  exact ⟨v', h1, (Prod.ext_iff.1 h2).1, (Prod.ext_iff.1 h2).2⟩

theorem _root_.Vox.Spec.SameField.lies {l l' : VLayer (TsdfVoxel ℚ)} (h : SameField l l') {g : Idx} {p : Pt} (k : LiesIn l g p) : LiesIn l' g p := by
  unfold LiesIn at *
  rw [h.1]
  exact k

theorem _root_.Vox.Spec.SameField.error {l l' : VLayer (TsdfVoxel ℚ)} (h : SameField l l') {p : Pt} {e : Option (Bool × ℚ)} (k : ErrorAt l p e) : ErrorAt l' p e := by
  cases k with
  | unknown g hg hw =>
    refine .unknown g (h.lies hg) fun v hv => ?_
    obtain ⟨v', h1, -, h3⟩ := h.get' hv
    rw [← h3]
    exact hw v' h1
  | outside g v hg hv hw hd =>
    obtain ⟨v', h1, h2, h3⟩ := h.get hv
    rw [← h2]
    exact .outside g v' (h.lies hg) h1 (h3 ▸ hw) (by rw [h.1, h2]; exact hd)
  | interpolated g i v f hg hv hw hd hi hf =>
    obtain ⟨v', h1, h2, h3⟩ := h.get hv
    have hf' : ∀ c, ∃ x, IsCorner c → content l' (i + c) = some x ∧ x.distance = (f c).distance ∧ x.weight = (f c).weight := by
      intro c
      by_cases hc : IsCorner c
      · obtain ⟨x, k1, k2, k3⟩ := h.get (hf c hc).1
        exact ⟨x, fun _ => ⟨k1, k2, k3⟩⟩
      · exact ⟨v, fun k => absurd k hc⟩
    choose f' hf' using hf'
    have e : trilinear (fun c => (f c).distance) = trilinear (fun c => (f' c).distance) := by
      funext o
      unfold trilinear
      simp only [(hf' _ (show IsCorner ⟨0, 0, 0⟩ by decide)).2.1, (hf' _ (show IsCorner ⟨0, 0, 1⟩ by decide)).2.1,
        (hf' _ (show IsCorner ⟨0, 1, 0⟩ by decide)).2.1, (hf' _ (show IsCorner ⟨0, 1, 1⟩ by decide)).2.1,
        (hf' _ (show IsCorner ⟨1, 0, 0⟩ by decide)).2.1, (hf' _ (show IsCorner ⟨1, 0, 1⟩ by decide)).2.1,
        (hf' _ (show IsCorner ⟨1, 1, 0⟩ by decide)).2.1, (hf' _ (show IsCorner ⟨1, 1, 1⟩ by decide)).2.1]
    rw [e, ← h.1]
    exact .interpolated g i v' f' (h.lies hg) h1 (h3 ▸ hw) (by rw [h.1, h2]; exact hd) (by rw [h.1]; exact hi)
      fun c hc => ⟨(hf' c hc).1, by rw [(hf' c hc).2.2]; exact (hf c hc).2⟩
  | nearest g i c v hg hv hw hd hi hc hx =>
    obtain ⟨v', h1, h2, h3⟩ := h.get hv
    rw [← h2]
    refine .nearest g i c v' (h.lies hg) h1 (h3 ▸ hw) (by rw [h.1, h2]; exact hd) (by rw [h.1]; exact hi) hc fun x hx' => ?_
    obtain ⟨y, k1, -, k3⟩ := h.get' hx'
    rw [← k3]
    exact hx y k1

theorem judge_ok {l : VLayer (TsdfVoxel ℚ)} (wf : WellFormed l) {p : Pt} (hp : Addressable l p) {e : Option (Bool × ℚ)} (h : ErrorAt l p e) :
    judge l p = .ok (verdictOf e) := by
  unfold judge
  rw [MapQuery.voxelAt_ok wf hp, Outcome.bind_ok]
  cases h with
  | unknown g hg hw =>
    rw [liesIn_gIdx wf hg]
    cases hc : content l g with
    | none => rfl
    | some v =>
      dsimp only
      rw [if_pos (show v.weight ≤ minWeight from hw v hc)]
      rfl
  | outside g v hg hv hw hd =>
    rw [liesIn_gIdx wf hg, hv]
    dsimp only
    rw [if_neg (show ¬ v.weight ≤ minWeight from not_le.2 hw), if_pos (show v.distance ≥ truncation l from hd)]
    rfl
  | interpolated g i v f hg hv hw hd hi hf =>
    rw [liesIn_gIdx wf hg, hv]
    dsimp only
    rw [if_neg (show ¬ v.weight ≤ minWeight from not_le.2 hw), if_neg (show ¬ v.distance ≥ truncation l from not_le.2 hd)]
    have := C47_trilinear wf obsTsdf (·.distance) hp hi (f := f) fun c hc => ⟨(hf c hc).1, decide_eq_true (hf c hc).2⟩
    unfold MapQuery.distanceTo MapQuery.interpTo
    rw [if_pos rfl, this]
    rfl
  | nearest g i c v hg hv hw hd hi hc hx =>
    rw [liesIn_gIdx wf hg, hv]
    dsimp only
    rw [if_neg (show ¬ v.weight ≤ minWeight from not_le.2 hw), if_neg (show ¬ v.distance ≥ truncation l from not_le.2 hd)]
    have := (C48_refuses wf obsTsdf hp hi hc fun x k => decide_eq_false (not_lt.2 (hx x k))).2 (·.distance)
    unfold MapQuery.distanceTo MapQuery.interpTo
    rw [if_pos rfl, this]
    rfl

/-- A point with an error has a voxel. -/
theorem _root_.Vox.Spec.ErrorAt.voxel {l : VLayer (TsdfVoxel ℚ)} {p : Pt} {b : Bool} {d : ℚ} (h : ErrorAt l p (some (b, d))) :
    ∃ g v, LiesIn l g p ∧ content l g = some v := by
  cases h with
  | outside g v hg hv => exact ⟨g, v, hg, hv⟩
  | interpolated g i v f hg hv => exact ⟨g, v, hg, hv⟩
  | nearest g i c v hg hv => exact ⟨g, v, hg, hv⟩

/-- Two errors of one point. -/
theorem _root_.Vox.Spec.ErrorAt.unique {l : VLayer (TsdfVoxel ℚ)} (wf : WellFormed l) {p : Pt} (hp : Addressable l p) {e e' : Option (Bool × ℚ)}
    (h : ErrorAt l p e) (h' : ErrorAt l p e') : e = e' := by
  have := Outcome.ok.inj ((judge_ok wf hp h).symm.trans (judge_ok wf hp h'))
  rcases e with _ | ⟨_ | _, d⟩ <;> rcases e' with _ | ⟨_ | _, d'⟩ <;> simp_all [verdictOf]

theorem shade_of_gray {t d : ℚ} (ht : 0 < t) (hd : |d| < 511 / 510 * t) : ∃ c, ColorMap.gray id (|d| / t) = .ok c ∧ Shade t d c := by
  have h0 : 0 ≤ |d| / t := div_nonneg (abs_nonneg _) ht.le
  have h1 : |d| / t * 255 < 255 + 1 / 2 := by
    have : |d| / t < 511 / 510 := (div_lt_iff₀ ht).2 hd
    linarith
  have r0 : 0 ≤ roundHalfAway (|d| / t * 255) := by
    unfold roundHalfAway
    rw [if_pos (by linarith)]
    exact Int.floor_nonneg.2 (by linarith)
  have r1 : roundHalfAway (|d| / t * 255) ≤ 255 := by
    unfold roundHalfAway
    rw [if_pos (by linarith), ← Int.lt_add_one_iff, Int.floor_lt]
    push_cast
    linarith
  obtain ⟨b, hb, hb'⟩ := ColorMap.toByte_ok (q := (roundHalfAway (|d| / t * 255) : ℚ)) (by exact_mod_cast r0) (by exact_mod_cast r1)
  rw [Int.floor_intCast] at hb'
  refine ⟨⟨b, b, b, 255⟩, ?_, rfl, rfl, rfl, ?_⟩
  · unfold ColorMap.gray
    simp only [id]
    rw [hb]
    rfl
  · have n := ColorMap.round_near (|d| / t * 255)
    rw [← hb'] at n
    have e : 255 * |d| / t = |d| / t * 255 := by ring
    dsimp only
    rw [e]
    exact_mod_cast n

theorem paint_ok {l : VLayer (TsdfVoxel ℚ)} (wf : WellFormed l) {p : Pt} (hp : Addressable l p) {g : Idx} (hg : LiesIn l g p) {v : TsdfVoxel ℚ}
    (hv : content l g = some v) {d : ℚ} (hd : |d| < 511 / 510 * truncation l) :
    ∃ l' c, paint l p d = .ok l' ∧ Shade (truncation l) d c ∧ WellFormed l' ∧ SameField l l' ∧
      ∀ k, content l' k = if k = g then some { v with color := c } else content l k := by
  have ht : 0 < truncation l := by unfold truncation; linarith [wf.size_pos]
  obtain ⟨c, hc, hs⟩ := shade_of_gray ht hd
  have eg : gIdx l p = g := liesIn_gIdx wf hg
  have eg' : globalIndex l.cfg.vps (bIdx l p) (vIdx l p) = g := eg
  cases hb : block? l (bIdx l p) with
  | none =>
    have := content_none hb (vIdx_inBlock wf p)
    rw [eg', hv] at this
    cases this
  | some b =>
    have al : Allocated l (bIdx l p) := by
      unfold Allocated
      rw [show l.blocks.lookup (bIdx l p) = some b from hb]
      rfl
    obtain ⟨x, hx, hx'⟩ := readVoxel_ok wf (vIdx_inBlock wf p) al
    rw [eg', hv] at hx'
    cases hx'
    obtain ⟨l', h1, h2, h3, h4, h5, -⟩ := writeVoxel_ok wf (vIdx_inBlock wf p) al { v with color := c }
    rw [eg'] at h4
    refine ⟨l', c, ?_, hs, h3, ⟨h2, h5, fun k => ?_⟩, h4⟩
    · unfold paint
      rw [blockIndexOf_ok wf hp, Outcome.bind_ok, hb]
      dsimp only
      rw [truncated_ok wf hb, Outcome.bind_ok, hx, Outcome.bind_ok, hc, Outcome.bind_ok]
      exact h1
    · rw [h4 k]
      split_ifs with hk
      · rw [hk, hv]
        rfl
      · rfl

theorem paint_ub {l : VLayer (TsdfVoxel ℚ)} (wf : WellFormed l) {p : Pt} (hp : Addressable l p) {g : Idx} (hg : LiesIn l g p) {v : TsdfVoxel ℚ}
    (hv : content l g = some v) {d : ℚ} (hd : 511 / 510 * truncation l ≤ |d|) : paint l p d = .ub := by
  have ht : 0 < truncation l := by unfold truncation; linarith [wf.size_pos]
  have eg' : globalIndex l.cfg.vps (bIdx l p) (vIdx l p) = g := liesIn_gIdx wf hg
  cases hb : block? l (bIdx l p) with
  | none =>
    have := content_none hb (vIdx_inBlock wf p)
    rw [eg', hv] at this
    cases this
  | some b =>
    have al : Allocated l (bIdx l p) := by
      unfold Allocated
      rw [show l.blocks.lookup (bIdx l p) = some b from hb]
      rfl
    obtain ⟨x, hx, -⟩ := readVoxel_ok wf (vIdx_inBlock wf p) al
    have hc : ColorMap.gray id (|d| / truncation l) = .ub := by
      refine ColorMap.C69_gray_undefined (Or.inr ?_)
      have : 511 / 510 ≤ |d| / truncation l := (le_div_iff₀ ht).2 hd
      linarith
    unfold paint
    rw [blockIndexOf_ok wf hp, Outcome.bind_ok, hb]
    dsimp only
    rw [truncated_ok wf hb, Outcome.bind_ok, hx, Outcome.bind_ok, hc]
    rfl

theorem _root_.Vox.Spec.SameField.addressable {l l' : VLayer (TsdfVoxel ℚ)} (h : SameField l l') {p : Pt} (k : Addressable l p) : Addressable l' p := by
  unfold Addressable at *
  rw [h.1]
  exact k

theorem _root_.Vox.Spec.SameField.trunc {l l' : VLayer (TsdfVoxel ℚ)} (h : SameField l l') : truncation l' = truncation l := by
  unfold truncation
  rw [h.1]

/-- The counters after points with errors `es`. -/
def tally (t : ℚ) (s : Stats) (es : List (Option (Bool × ℚ))) : Stats :=
  { total := s.total + es.length
    unknown := s.unknown + es.countP (fun e => e.isNone)
    outside := s.outside + es.countP (fun e => e.elim false (·.1))
    mse := s.mse + (es.map (squared t)).sum }

theorem tally_cons (t : ℚ) (s : Stats) (e : Option (Bool × ℚ)) (es : List (Option (Bool × ℚ))) :
    tally t (count t s (verdictOf e)) es = tally t s (e :: es) := by
  rcases e with _ | ⟨_ | _, d⟩ <;>
    simp only [tally, verdictOf, count, squared, Option.isNone_none, Option.isNone_some, Option.elim, List.countP_cons, List.length_cons, List.map_cons, List.sum_cons,
      if_true, Bool.false_eq_true, if_false, Stats.mk.injEq] <;>
    refine ⟨by omega, by omega, by omega, by ring⟩

theorem fold_plain {l : VLayer (TsdfVoxel ℚ)} (wf : WellFormed l) : ∀ (z : List (Pt × Option (Bool × ℚ))) (s : Stats), Judged l z →
    (z.map (·.1)).foldlM (evalPoint false) (s, l) = .ok (tally (truncation l) s (z.map (·.2)), l)
  | [], s, _ => by simp [tally, Outcome.pure_eq]
  | (p, e) :: z, s, h => by
    obtain ⟨hp, he⟩ := h _ List.mem_cons_self
    have step : evalPoint false (s, l) p = .ok (count (truncation l) s (verdictOf e), l) := by
      unfold evalPoint
      rw [judge_ok wf hp he, Outcome.bind_ok]
      rcases e with _ | ⟨_ | _, d⟩ <;> rfl
    rw [List.map_cons, List.foldlM_cons, step, Outcome.bind_ok, fold_plain wf z _ fun x hx => h x (List.mem_cons_of_mem _ hx), tally_cons]
    rfl

/-- Every known distance has a grey value. -/
def Paintable (t : ℚ) (z : List (Pt × Option (Bool × ℚ))) : Prop := ∀ p b d, (p, some (b, d)) ∈ z → |d| < 511 / 510 * t

theorem step_paint {l0 l : VLayer (TsdfVoxel ℚ)} (sf : SameField l0 l) (wf : WellFormed l) {p : Pt} {e : Option (Bool × ℚ)} (hp : Addressable l0 p)
    (he : ErrorAt l0 p e) (hd : ∀ b d, e = some (b, d) → |d| < 511 / 510 * truncation l0) (s : Stats) :
    ∃ l', evalPoint true (s, l) p = .ok (count (truncation l0) s (verdictOf e), l') ∧ WellFormed l' ∧ SameField l0 l' ∧
      (∀ g, (e = none ∨ ¬ LiesIn l0 g p) → content l' g = content l g) ∧
      ∀ g b d, e = some (b, d) → LiesIn l0 g p → ∃ v c, content l g = some v ∧ content l' g = some { v with color := c } ∧ Shade (truncation l0) d c := by
  have he' := sf.error he
  have hp' := sf.addressable hp
  have ej := judge_ok wf hp' he'
  rcases e with _ | ⟨b, d⟩
  · refine ⟨l, ?_, wf, sf, fun _ _ => rfl, fun _ _ _ h => by cases h⟩
    unfold evalPoint
    rw [ej, Outcome.bind_ok]
    simp only [sf.trunc]
    rfl
  · obtain ⟨g, v, hg, hv⟩ := he'.voxel
    obtain ⟨l', c, h1, h2, h3, h4, h5⟩ := paint_ok wf hp' hg hv (by rw [sf.trunc]; exact hd b d rfl)
    rw [sf.trunc] at h2
    refine ⟨l', ?_, h3, sf.trans h4, fun k hk => ?_, fun k b' d' e hk => ?_⟩
    · unfold evalPoint
      dsimp only
      rw [ej, Outcome.bind_ok]
      have : recolor true l p (verdictOf (some (b, d))).distance? = .ok l' := by
        rw [← h1]
        cases b <;> rfl
      rw [this, Outcome.bind_ok, sf.trunc]
      rfl
    · rw [h5 k, if_neg]
      rintro rfl
      rcases hk with hk | hk
      · cases hk
      · refine hk ?_
        unfold LiesIn at *
        rw [← sf.1]
        exact hg
    · cases e
      have : k = g := (liesIn_gIdx wf (sf.lies hk)).symm.trans (liesIn_gIdx wf hg)
      subst this
      exact ⟨v, c, hv, by rw [h5, if_pos rfl], h2⟩

theorem fold_paint {l0 : VLayer (TsdfVoxel ℚ)} : ∀ (z : List (Pt × Option (Bool × ℚ))) (s : Stats) (l : VLayer (TsdfVoxel ℚ)),
    SameField l0 l → WellFormed l → Judged l0 z → Paintable (truncation l0) z →
    ∃ l', (z.map (·.1)).foldlM (evalPoint true) (s, l) = .ok (tally (truncation l0) s (z.map (·.2)), l') ∧ WellFormed l' ∧ SameField l0 l' ∧
      (∀ g, (∀ p b d, (p, some (b, d)) ∈ z → ¬ LiesIn l0 g p) → content l' g = content l g) ∧
      ∀ g pre p b d post, z = pre ++ (p, some (b, d)) :: post → LiesIn l0 g p → (∀ q b' d', (q, some (b', d')) ∈ post → ¬ LiesIn l0 g q) →
        ∃ v c, content l g = some v ∧ content l' g = some { v with color := c } ∧ Shade (truncation l0) d c
  | [], s, l, sf, wf, _, _ => by
    refine ⟨l, by simp [tally, Outcome.pure_eq], wf, sf, fun _ _ => rfl, fun g pre p b d post h => ?_⟩
    simp at h
  | (p, e) :: z, s, l, sf, wf, hz, hd => by
    obtain ⟨hp, he⟩ := hz _ List.mem_cons_self
    obtain ⟨l1, h1, h2, h3, h4, h5⟩ := step_paint sf wf hp he (fun b d k => hd p b d (k ▸ List.mem_cons_self)) s
    obtain ⟨l2, k1, k2, k3, k4, k5⟩ := fold_paint z (count (truncation l0) s (verdictOf e)) l1 h3 h2 (fun x hx => hz x (List.mem_cons_of_mem _ hx))
      fun q b d hq => hd q b d (List.mem_cons_of_mem _ hq)
    refine ⟨l2, ?_, k2, k3, fun g hg => ?_, fun g pre q b d post hq hl hpost => ?_⟩
    · rw [List.map_cons, List.foldlM_cons, h1, Outcome.bind_ok, k1, tally_cons]
      rfl
    · rw [k4 g fun q b d hq => hg q b d (List.mem_cons_of_mem _ hq), h4 g]
      rcases e with _ | ⟨b, d⟩
      · exact Or.inl rfl
      · exact Or.inr (hg p b d List.mem_cons_self)
    · rcases pre with _ | ⟨⟨p', e'⟩, pre⟩
      · simp only [List.nil_append, List.cons.injEq, Prod.mk.injEq] at hq
        obtain ⟨⟨rfl, rfl⟩, rfl⟩ := hq
        obtain ⟨v, c, a1, a2, a3⟩ := h5 g b d rfl hl
        exact ⟨v, c, a1, by rw [k4 g hpost, a2], a3⟩
      · simp only [List.cons_append, List.cons.injEq, Prod.mk.injEq] at hq
        obtain ⟨⟨rfl, rfl⟩, hq⟩ := hq
        obtain ⟨v, c, a1, a2, a3⟩ := k5 g pre q b d post hq hl hpost
        by_cases hc : e = none ∨ ¬ LiesIn l0 g p
        · exact ⟨v, c, (h4 g hc).symm.trans a1, a2, a3⟩
        · push Not at hc
          obtain ⟨hc1, hc2⟩ := hc
          obtain ⟨⟨b', d'⟩, rfl⟩ := Option.ne_none_iff_exists'.1 hc1
          obtain ⟨w, c', b1, b2, -⟩ := h5 g b' d' rfl hc2
          rw [b2] at a1
          cases a1
          exact ⟨w, c, b1, a2, a3⟩

theorem fold_ub {l0 : VLayer (TsdfVoxel ℚ)} : ∀ (z : List (Pt × Option (Bool × ℚ))) (s : Stats) (l : VLayer (TsdfVoxel ℚ)),
    SameField l0 l → WellFormed l → Judged l0 z → ¬ Paintable (truncation l0) z → (z.map (·.1)).foldlM (evalPoint true) (s, l) = .ub
  | [], s, l, sf, wf, _, h => absurd (fun p b d h => by simp at h) h
  | (p, e) :: z, s, l, sf, wf, hz, h => by
    obtain ⟨hp, he⟩ := hz _ List.mem_cons_self
    rw [List.map_cons, List.foldlM_cons]
    by_cases hd : ∀ b d, e = some (b, d) → |d| < 511 / 510 * truncation l0
    · obtain ⟨l1, h1, h2, h3, -, -⟩ := step_paint sf wf hp he hd s
      rw [h1, Outcome.bind_ok]
      refine fold_ub z _ l1 h3 h2 (fun x hx => hz x (List.mem_cons_of_mem _ hx)) fun hn => h fun q b d hq => ?_
      rcases List.mem_cons.1 hq with hq | hq
      · exact hd b d (Prod.ext_iff.1 hq).2.symm
      · exact hn q b d hq
    · push Not at hd
      obtain ⟨b, d, rfl, hd⟩ := hd
      have he' := sf.error he
      have hp' := sf.addressable hp
      obtain ⟨g, v, hg, hv⟩ := he'.voxel
      have hu := paint_ub wf hp' hg hv (d := d) (by rw [sf.trunc]; exact hd)
      have : evalPoint true (s, l) p = .ub := by
        unfold evalPoint
        dsimp only
        rw [judge_ok wf hp' he', Outcome.bind_ok]
        have : recolor true l p (verdictOf (some (b, d))).distance? = .ub := by
          rw [← hu]
          cases b <;> rfl
        rw [this]
        rfl
      rw [this]
      rfl

theorem step_plain {l : VLayer (TsdfVoxel ℚ)} {s : Stats} {p : Pt} {r : Stats × VLayer (TsdfVoxel ℚ)} :
    evalPoint false (s, l) p = .ok r ↔ ∃ j, judge l p = .ok j ∧ r = (count (truncation l) s j, l) := by
  have e : ∀ o, recolor false l p o = .ok l := fun o => by cases o <;> rfl
  unfold evalPoint
  dsimp only
  rw [Outcome.bind_eq_ok]
  refine exists_congr fun j => and_congr_right fun _ => ?_
  rw [e, Outcome.bind_ok, Outcome.pure_eq, Outcome.ok.injEq]
  exact eq_comm

theorem count_comm (t : ℚ) (s : Stats) (a b : Verdict) : count t (count t s a) b = count t (count t s b) a := by
  cases a <;> cases b <;> simp only [count, Stats.mk.injEq, true_and] <;> ring

theorem fold_perm {l : VLayer (TsdfVoxel ℚ)} {ps qs : List Pt} (h : ps.Perm qs) : ∀ {s : Stats} {r : Stats × VLayer (TsdfVoxel ℚ)},
    ps.foldlM (evalPoint false) (s, l) = .ok r → qs.foldlM (evalPoint false) (s, l) = .ok r := by
  induction h with
  | nil => exact fun h => h
  | cons p _ ih =>
    intro s r h
    rw [List.foldlM_cons, Outcome.bind_eq_ok] at h ⊢
    obtain ⟨x, h1, h2⟩ := h
    obtain ⟨j, -, rfl⟩ := step_plain.1 h1
    exact ⟨_, h1, ih h2⟩
  | swap p q _ =>
    intro s r h
    rw [List.foldlM_cons, Outcome.bind_eq_ok] at h
    obtain ⟨x, h1, h2⟩ := h
    obtain ⟨j, hj, rfl⟩ := step_plain.1 h1
    rw [List.foldlM_cons, Outcome.bind_eq_ok] at h2
    obtain ⟨y, h3, h4⟩ := h2
    obtain ⟨k, hk, rfl⟩ := step_plain.1 h3
    rw [List.foldlM_cons, step_plain.2 ⟨k, hk, rfl⟩, Outcome.bind_ok, List.foldlM_cons, step_plain.2 ⟨j, hj, rfl⟩, Outcome.bind_ok, count_comm]
    exact h4
  | trans _ _ ih1 ih2 => exact fun h => ih2 (ih1 h)

theorem squared_le {l : VLayer (TsdfVoxel ℚ)} (wf : WellFormed l) {p : Pt} (hp : Addressable l p) {e : Option (Bool × ℚ)} (h : ErrorAt l p e) {m : ℚ}
    (hm : 2 * l.cfg.voxelSize ≤ m) (hb : ∀ g v, content l g = some v → |v.distance| ≤ m) : squared (truncation l) e ≤ if e.isSome then m ^ 2 else 0 := by
  have sq : ∀ d : ℚ, |d| ≤ m → d ^ 2 ≤ m ^ 2 := fun d hd => sq_le_sq' (by linarith [(abs_le.1 hd).1]) (abs_le.1 hd).2
  cases h with
  | unknown g hg hw => exact le_refl _
  | outside g v hg hv hw hd =>
    refine sq _ ?_
    unfold truncation
    rw [abs_of_nonneg (by linarith [wf.size_pos])]
    exact hm
  | interpolated g i v f hg hv hw hd hi hf =>
    refine sq _ (abs_le.2 ?_)
    exact C47_bounded wf obsTsdf (·.distance) hp hi (fun c _ x hx => abs_le.1 (hb _ x hx))
      (C47_trilinear wf obsTsdf (·.distance) hp hi fun c hc => ⟨(hf c hc).1, decide_eq_true (hf c hc).2⟩)
  | nearest g i c v hg hv => exact sq _ (hb g v hv)

theorem sum_le {t m : ℚ} : ∀ {es : List (Option (Bool × ℚ))}, (∀ e ∈ es, squared t e ≤ if e.isSome then m ^ 2 else 0) →
    (es.map (squared t)).sum ≤ (es.countP (·.isSome) : ℕ) * m ^ 2
  | [], _ => by simp
  | e :: es, h => by
    have h1 := h e List.mem_cons_self
    have h2 := sum_le fun x hx => h x (List.mem_cons_of_mem _ hx)
    rw [List.map_cons, List.sum_cons, List.countP_cons]
    split_ifs at h1 ⊢ <;> push_cast <;> linarith

theorem known_add (es : List (Option (Bool × ℚ))) : es.length - es.countP (·.isNone) = es.countP (·.isSome) := by
  have : es.length = es.countP (·.isNone) + es.countP (·.isSome) := by
    induction es with
    | nil => rfl
    | cons e es ih => cases e <;> simp [ih] <;> omega
  omega

end Vox.EvalCloud
