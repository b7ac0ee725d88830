import Verif.ErrorDocs
import Verif.GoStringLemmas
import Verif.CodeSetLemmas
import Verif.Spec.DocGrammar

namespace Serum
open GoStr CodeFormat DocGrammar

/-- Everything except the `EntryText` functional dependency works on trimmed lines. -/
def DocSM.loopT (sm : DocSM) : List GoString → Except DocError DocSM
  | [] => .ok sm
  | line :: lines =>
    match sm.step line with
    | .error e => .error e
    | .ok sm' => loopT sm' lines

theorem DocSM.loop_eq_loopT (sm : DocSM) (ls : List GoString) :
    sm.loop ls = sm.loopT (ls.map trimSpace) := by
  induction ls generalizing sm with
  | nil => rfl
  | cons l ls ih =>
    simp only [DocSM.loop, List.map_cons, DocSM.loopT]
    split <;> simp_all

theorem DocSM.loopT_append (sm : DocSM) (xs ys : List GoString) :
    sm.loopT (xs ++ ys) = match sm.loopT xs with | .error e => .error e | .ok sm' => sm'.loopT ys := by
  induction xs generalizing sm with
  | nil => rfl
  | cons x xs ih =>
    simp only [List.cons_append, DocSM.loopT]
    split
    · rfl
    · exact ih _

theorem entryText_unique {l t t' : GoString} (h : EntryText l t) (h' : EntryText l t') : t = t' := by
  obtain ⟨raw, rest, e, hf, rfl⟩ := h
  obtain ⟨raw', rest', e', hf', rfl⟩ := h'
  have key : ∀ (raw raw' rest rest' : GoString), l = b!"- " ++ raw ++ b!" --" ++ rest →
      l = b!"- " ++ raw' ++ b!" --" ++ rest' →
      (∀ i, i < (b!"- " ++ raw').length → ¬ b!" --" <+: l.drop i) → raw'.length ≤ raw.length := by
    intro raw raw' rest rest' e e' hf'
    rcases Nat.lt_or_ge raw.length raw'.length with h | h
    · exfalso
      apply hf' (b!"- " ++ raw).length (by simp; omega)
      rw [e, List.append_assoc, List.drop_left]
      exact List.prefix_append _ _
    · exact h
  have h1 := key raw raw' rest rest' e e' hf'
  have h2 := key raw' raw rest' rest e' e hf
  have hl : raw.length = raw'.length := by omega
  have : raw = raw' := by
    rw [e] at e'
    simp only [List.append_assoc] at e'
    have e2 := List.append_cancel_left e'
    exact (List.append_inj e2 hl).1
  rw [this]

theorem wellFormed_ne_nil {c : GoString} (h : WellFormed c) : c ≠ [] := by
  rintro rfl
  rw [← isErrorCodeValid_iff_wellFormed] at h
  simp [isErrorCodeValid] at h

theorem wellFormed_bytes {c : GoString} (h : WellFormed c) : ∀ b ∈ c, Letter b ∨ Digit b ∨ Dash b := by
  rcases h with ⟨f, m, z, e, hf, hm, hz⟩ | ⟨b, e, hb⟩
  · rw [e]; intro b hb
    simp only [List.mem_cons, List.mem_append, List.not_mem_nil, or_false] at hb
    rcases hb with rfl | hb | rfl
    · exact .inl hf
    · exact hm b hb
    · rcases hz with h | h
      · exact .inl h
      · exact .inr (.inl h)
  · rw [e]; intro x hx; simp at hx; subst hx; exact .inl hb

theorem wellFormed_not_param {c : GoString} (h : WellFormed c) : ¬ b!"param:" <+: c := by
  rintro ⟨r, rfl⟩
  have := wellFormed_bytes h 58 (by simp)
  simp only [Letter, Digit, Dash] at this
  revert this; decide

theorem stepEntry_ok {sm sm' : DocSM} {l : GoString} (hl : b!"- " <+: l)
    (h : sm.stepEntry l = .ok sm') :
    (∃ c, EntryCode l c ∧ sm' = { sm with seen := sm.seen.add c }) ∨
    (∃ p, EntryParam l p ∧ sm.param = [] ∧ sm' = { sm with param := p }) := by
  unfold DocSM.stepEntry at h
  cases hi : index b!" --" l with
  | none => rw [hi] at h; cases h
  | some e =>
    rw [hi] at h
    dsimp only at h
    split at h
    · cases h
    rename_i he
    have ht : EntryText l (trimSpace ((l.take e).drop 2)) := by
      rw [index_some_iff] at hi
      obtain ⟨h1, ⟨rest, h2⟩, h3⟩ := hi
      refine ⟨(l.take e).drop 2, rest, ?_, ?_, rfl⟩
      · obtain ⟨r, rfl⟩ := hl
        have : (b!"- " ++ r).take e = b!"- " ++ ((b!"- " ++ r).take e).drop 2 := by
          obtain ⟨k, rfl⟩ : ∃ k, e = k + 2 := ⟨e - 2, by omega⟩
          simp
        rw [← this, List.append_assoc, h2, List.take_append_drop]
      · intro i hi
        apply h3
        simp at hi; omega
    generalize trimSpace ((l.take e).drop 2) = code at h ht
    split at h
    · cases h
    split at h
    · rename_i hp
      right
      rw [hasPrefix_iff] at hp
      obtain ⟨x, rfl⟩ := hp
      have hx : (b!"param:" ++ x).drop 6 = x := by simp
      rw [hx] at h
      split at h
      · cases h
      · split at h
        · cases h
        · rename_i hne hsp
          refine ⟨trimSpace x, ⟨hne, x, ht, rfl⟩, by simpa using hsp, ?_⟩
          simpa using h.symm
    · split at h
      · rename_i hv
        left
        exact ⟨code, ⟨ht, (isErrorCodeValid_iff_wellFormed _).1 hv⟩, by simpa using h.symm⟩
      · cases h

theorem index_of_entryText {l t : GoString} (h : EntryText l t) :
    ∃ e, index b!" --" l = some e ∧ 2 ≤ e ∧ trimSpace ((l.take e).drop 2) = t := by
  obtain ⟨raw, rest, e, hf, rfl⟩ := h
  refine ⟨(b!"- " ++ raw).length, ?_, by simp, ?_⟩
  · rw [index_some_iff]
    refine ⟨by rw [e]; simp, ?_, hf⟩
    rw [e, List.append_assoc, List.drop_left]
    exact List.prefix_append _ _
  · rw [e, List.append_assoc, List.take_left]; simp

theorem stepEntry_code {sm : DocSM} {l c : GoString} (h : EntryCode l c) :
    sm.stepEntry l = .ok { sm with seen := sm.seen.add c } := by
  obtain ⟨e, h1, h2, h3⟩ := index_of_entryText h.1
  unfold DocSM.stepEntry
  rw [h1]
  dsimp only
  rw [if_neg (by omega), h3, if_neg (wellFormed_ne_nil h.2), if_neg, if_pos]
  · exact (isErrorCodeValid_iff_wellFormed _).2 h.2
  · rw [hasPrefix_iff]; exact wellFormed_not_param h.2

theorem stepEntry_param {sm : DocSM} {l p : GoString} (h : EntryParam l p) (hs : sm.param = []) :
    sm.stepEntry l = .ok { sm with param := p } := by
  obtain ⟨hne, x, ht, rfl⟩ := h
  obtain ⟨e, h1, h2, h3⟩ := index_of_entryText ht
  unfold DocSM.stepEntry
  rw [h1]
  dsimp only
  rw [if_neg (by omega), h3, if_neg (by simp), if_pos]
  · have hx : (b!"param:" ++ x).drop 6 = x := by simp
    rw [hx, if_neg hne, if_neg (by simpa using hs)]
  · rw [hasPrefix_iff]; exact List.prefix_append _ _

theorem entryCode_not_param {l c p : GoString} (h : EntryCode l c) : ¬ EntryParam l p := by
  rintro ⟨_, x, ht, _⟩
  have := entryText_unique h.1 ht
  subst this
  exact wellFormed_not_param h.2 (List.prefix_append _ _)

theorem entryText_dash {l t : GoString} (h : EntryText l t) : b!"- " <+: l := by
  obtain ⟨raw, rest, e, _, _⟩ := h
  rw [e, List.append_assoc, List.append_assoc]; exact List.prefix_append _ _

/-! ## The phases of the machine -/

theorem loopT_done {sm : DocSM} (hs : sm.state = .done) (ls : List GoString) (sm' : DocSM) :
    sm.loopT ls = .ok sm' ↔ sm' = sm ∧ ∀ l ∈ ls, ¬ HasIndicator l := by
  induction ls with
  | nil => simp [DocSM.loopT]; exact eq_comm
  | cons l ls ih =>
    simp only [DocSM.loopT, DocSM.step, hs, DocSM.stepDone]
    by_cases hp : HasIndicator l
    · rw [if_pos ((hasPrefix_iff _ _).2 hp)]
      simp [hp]
    · rw [if_neg (mt (hasPrefix_iff _ _).1 hp)]
      simp [ih, hp]

/-- One line of a block that is not blank. -/
theorem stepParsing_nonblank {sm sm' : DocSM} {l : GoString} (hl : l ≠ [])
    (h : sm.stepParsing l = .ok sm') :
    BlockLine l ∧ sm'.state = sm.state ∧ sm'.noCodesOk = sm.noCodesOk ∧
      (∀ c, c ∈ sm'.seen ↔ c ∈ sm.seen ∨ EntryCode l c) ∧
      ((sm'.param = sm.param ∧ ∀ p, ¬ EntryParam l p) ∨ (sm.param = [] ∧ EntryParam l sm'.param)) := by
  unfold DocSM.stepParsing at h
  rw [if_neg hl] at h
  split at h
  · cases h
  rename_i hi
  have hi' : ¬ HasIndicator l := mt (hasPrefix_iff _ _).2 hi
  split at h
  · rename_i hd
    rw [hasPrefix_iff] at hd
    rcases stepEntry_ok hd h with ⟨c, hc, rfl⟩ | ⟨p, hp, hs, rfl⟩
    · refine ⟨⟨hl, hi', fun _ => .inl ⟨c, hc⟩⟩, rfl, rfl, ?_, .inl ⟨rfl, fun p => entryCode_not_param hc⟩⟩
      intro c'
      rw [CodeSet.mem_add]
      constructor
      · rintro (h | rfl)
        · exact .inl h
        · exact .inr hc
      · rintro (h | h)
        · exact .inl h
        · exact .inr (entryText_unique h.1 hc.1)
    · refine ⟨⟨hl, hi', fun _ => .inr ⟨p, hp⟩⟩, rfl, rfl, ?_, .inr ⟨hs, hp⟩⟩
      intro c'
      constructor
      · exact Or.inl
      · rintro (h | h)
        · exact h
        · exact absurd hp (entryCode_not_param h)
  · rename_i hd
    have hd' : ¬ b!"- " <+: l := mt (hasPrefix_iff _ _).2 hd
    simp only [Except.ok.injEq] at h
    subst h
    refine ⟨⟨hl, hi', fun c => absurd c hd'⟩, rfl, rfl, ?_, .inl ⟨rfl, ?_⟩⟩
    · intro c
      constructor
      · exact Or.inl
      · rintro (h | h)
        · exact h
        · exact absurd (entryText_dash h.1) hd'
    · rintro p ⟨_, x, ht, _⟩
      exact hd' (entryText_dash ht)

theorem stepParsing_block {sm : DocSM} {l : GoString} (h : BlockLine l)
    (hp : sm.param ≠ [] → ∀ p, ¬ EntryParam l p) :
    ∃ sm', sm.stepParsing l = .ok sm' := by
  obtain ⟨h1, h2, h3⟩ := h
  unfold DocSM.stepParsing
  rw [if_neg h1, if_neg (mt (hasPrefix_iff _ _).1 h2)]
  split
  · rename_i hd
    rcases h3 ((hasPrefix_iff _ _).1 hd) with ⟨c, hc⟩ | ⟨p, hc⟩
    · exact ⟨_, stepEntry_code hc⟩
    · exact ⟨_, stepEntry_param hc (by
        by_cases hs : sm.param = []
        · exact hs
        · exact absurd hc (hp hs p))⟩
  · exact ⟨_, rfl⟩

/-- The parameter after a block, given the one before. -/
def BlockParamFrom (p₀ : GoString) (block : List GoString) (param : GoString) : Prop :=
  (param = p₀ ∧ ∀ l ∈ block, ∀ p, ¬ EntryParam l p) ∨ (p₀ = [] ∧ BlockParam block param)

theorem blockParamFrom_nil (block : List GoString) (param : GoString) :
    BlockParamFrom [] block param ↔ BlockParam block param := by
  constructor
  · rintro (⟨h1, h2⟩ | ⟨_, h⟩)
    · exact .inl ⟨h1, h2⟩
    · exact h
  · intro h; exact .inr ⟨rfl, h⟩

theorem loopT_parsing_sound {sm sm' : DocSM} (hs : sm.state = .parsing) (ls : List GoString)
    (h : sm.loopT ls = .ok sm') :
    ∃ block tail, ls = block ++ tail ∧ (∀ l ∈ block, BlockLine l) ∧ AfterBlock tail ∧
      sm'.noCodesOk = sm.noCodesOk ∧ (∀ c, c ∈ sm'.seen ↔ c ∈ sm.seen ∨ ∃ l ∈ block, EntryCode l c) ∧
      BlockParamFrom sm.param block sm'.param := by
  induction ls generalizing sm with
  | nil =>
    simp only [DocSM.loopT, Except.ok.injEq] at h
    subst h
    exact ⟨[], [], rfl, by simp, .inl rfl, rfl, by simp, .inl ⟨rfl, by simp⟩⟩
  | cons l ls ih =>
    simp only [DocSM.loopT, DocSM.step, hs] at h
    by_cases hl : l = []
    · subst hl
      simp only [DocSM.stepParsing, if_true] at h
      rw [loopT_done rfl] at h
      obtain ⟨rfl, hp⟩ := h
      exact ⟨[], [] :: ls, rfl, by simp, .inr ⟨ls, rfl, hp⟩, rfl, by simp, .inl ⟨rfl, by simp⟩⟩
    · cases hst : sm.stepParsing l with
      | error e => rw [hst] at h; cases h
      | ok sm1 =>
        rw [hst] at h
        obtain ⟨hb, hst1, hno, hseen, hpar⟩ := stepParsing_nonblank hl hst
        obtain ⟨block, tail, rfl, hB, hT, hno', hseen', hpar'⟩ := ih (hst1.trans hs) h
        refine ⟨l :: block, tail, rfl, ?_, hT, hno'.trans hno, ?_, ?_⟩
        · intro x hx
          rcases List.mem_cons.1 hx with rfl | hx
          · exact hb
          · exact hB x hx
        · intro c
          rw [hseen', hseen]
          constructor
          · rintro ((h | h) | ⟨x, hx, h⟩)
            · exact .inl h
            · exact .inr ⟨l, by simp, h⟩
            · exact .inr ⟨x, by simp [hx], h⟩
          · rintro (h | ⟨x, hx, h⟩)
            · exact .inl (.inl h)
            · rcases List.mem_cons.1 hx with rfl | hx
              · exact .inl (.inr h)
              · exact .inr ⟨x, hx, h⟩
        · rcases hpar with ⟨hp1, hp2⟩ | ⟨hp1, hp2⟩
          · rcases hpar' with ⟨hq1, hq2⟩ | ⟨hq1, hq2⟩
            · left
              refine ⟨hq1.trans hp1, ?_⟩
              intro x hx
              rcases List.mem_cons.1 hx with rfl | hx
              · exact hp2
              · exact hq2 x hx
            · right
              refine ⟨hp1 ▸ hq1, ?_⟩
              rcases hq2 with ⟨hr1, hr2⟩ | ⟨b1, x, b2, rfl, hr1, hr2⟩
              · left
                refine ⟨hr1, ?_⟩
                intro x hx
                rcases List.mem_cons.1 hx with rfl | hx
                · exact hp2
                · exact hr2 x hx
              · right
                refine ⟨l :: b1, x, b2, rfl, hr1, ?_⟩
                intro y hy
                rcases List.mem_cons.1 hy with rfl | hy
                · exact hp2
                · exact hr2 y hy
          · have hne : sm1.param ≠ [] := hp2.1
            rcases hpar' with ⟨hq1, hq2⟩ | ⟨hq1, hq2⟩
            · right
              refine ⟨hp1, .inr ⟨[], l, block, rfl, hq1 ▸ hp2, by simpa using hq2⟩⟩
            · exact absurd hq1 hne

theorem loopT_parsing_complete {sm : DocSM} (hs : sm.state = .parsing) (block tail : List GoString)
    (hB : ∀ l ∈ block, BlockLine l) (hT : AfterBlock tail) (param : GoString)
    (hP : BlockParamFrom sm.param block param) :
    ∃ sm', sm.loopT (block ++ tail) = .ok sm' := by
  induction block generalizing sm with
  | nil =>
    rcases hT with rfl | ⟨post, rfl, hpost⟩
    · exact ⟨sm, rfl⟩
    · refine ⟨{ sm with state := .done }, ?_⟩
      simp only [List.nil_append, DocSM.loopT, DocSM.step, hs, DocSM.stepParsing, if_true]
      exact (loopT_done rfl _ _).2 ⟨rfl, hpost⟩
  | cons l block ih =>
    have hl : l ≠ [] := (hB l (by simp)).1
    have hpl : sm.param ≠ [] → ∀ p, ¬ EntryParam l p := by
      intro hne
      rcases hP with ⟨_, h⟩ | ⟨h, _⟩
      · exact h l (by simp)
      · exact absurd h hne
    obtain ⟨sm1, h1⟩ := stepParsing_block (hB l (by simp)) hpl
    obtain ⟨hb, hst1, hno, hseen, hpar⟩ := stepParsing_nonblank hl h1
    have : BlockParamFrom sm1.param block param := by
      rcases hpar with ⟨hp1, hp2⟩ | ⟨hp1, hp2⟩
      · rcases hP with ⟨hq1, hq2⟩ | ⟨hq1, hq2⟩
        · exact .inl ⟨hq1.trans hp1.symm, fun x hx => hq2 x (by simp [hx])⟩
        · right
          refine ⟨hp1.trans hq1, ?_⟩
          rcases hq2 with ⟨hr1, hr2⟩ | ⟨b1, x, b2, he, hr1, hr2⟩
          · exact .inl ⟨hr1, fun x hx => hr2 x (by simp [hx])⟩
          · cases b1 with
            | nil =>
              simp at he
              exact absurd (he.1 ▸ hr1) (hp2 param)
            | cons y b1 =>
              simp at he
              exact .inr ⟨b1, x, b2, he.2, hr1, fun z hz => hr2 z (by simp at hz ⊢; exact .inr hz)⟩
      · rcases hP with ⟨hq1, hq2⟩ | ⟨hq1, hq2⟩
        · exact absurd hp2 (hq2 l (by simp) _)
        · rcases hq2 with ⟨hr1, hr2⟩ | ⟨b1, x, b2, he, hr1, hr2⟩
          · exact absurd hp2 (hr2 l (by simp) _)
          · cases b1 with
            | nil =>
              simp at he
              obtain ⟨rfl, rfl⟩ := he
              refine .inl ⟨?_, by simpa using hr2⟩
              obtain ⟨_, x1, t1, e1⟩ := hr1
              obtain ⟨_, x2, t2, e2⟩ := hp2
              have := List.append_cancel_left (entryText_unique t1 t2)
              rw [e1, e2, this]
            | cons y b1 =>
              simp at he
              exact absurd (he.1 ▸ hp2) (hr2 y (by simp) _)
    obtain ⟨sm', h'⟩ := ih (hst1.trans hs) (fun x hx => hB x (by simp [hx])) this
    refine ⟨sm', ?_⟩
    simp only [List.cons_append, DocSM.loopT, DocSM.step, hs, h1]
    exact h'

theorem loopT_prose {sm : DocSM} (hs : sm.state = .init) (pre : List GoString) (h : ∀ l ∈ pre, Prose l) :
    sm.loopT pre = .ok sm := by
  induction pre with
  | nil => rfl
  | cons l pre ih =>
    obtain ⟨h1, h2⟩ := h l (by simp)
    unfold StartsBlock at h1
    simp only [DocSM.loopT, DocSM.step, hs, DocSM.stepInit]
    rw [if_neg h1, if_neg (mt (hasPrefix_iff _ _).1 h2)]
    exact ih fun x hx => h x (by simp [hx])

theorem startsBlock_not_none {l : GoString} (h : StartsBlock l) : ¬ SaysNone l := by
  rw [StartsBlock] at h; subst h; rw [SaysNone, ← hasPrefix_iff]; decide

theorem loopT_start_split (ls : List GoString) :
    (∀ l ∈ ls, Prose l) ∨ ∃ pre l post, ls = pre ++ l :: post ∧ (∀ l ∈ pre, Prose l) ∧
      (StartsBlock l ∨ SaysNone l) := by
  induction ls with
  | nil => left; simp
  | cons l ls ih =>
    by_cases hl : StartsBlock l ∨ SaysNone l
    · exact .inr ⟨[], l, ls, rfl, by simp, hl⟩
    · have hp : Prose l := ⟨fun h => hl (.inl h), fun h => hl (.inr h)⟩
      rcases ih with h | ⟨pre, x, post, rfl, hpre, hx⟩
      · left
        intro y hy
        rcases List.mem_cons.1 hy with rfl | hy
        · exact hp
        · exact h y hy
      · right
        refine ⟨l :: pre, x, post, rfl, ?_, hx⟩
        intro y hy
        rcases List.mem_cons.1 hy with rfl | hy
        · exact hp
        · exact hpre y hy

theorem loopT_block_start {sm : DocSM} (hs : sm.state = .init) (pre : List GoString) (l : GoString)
    (rest : List GoString) (hpre : ∀ l ∈ pre, Prose l) (hl : StartsBlock l) :
    sm.loopT (pre ++ l :: rest) = ({ sm with state := .needBlankLine } : DocSM).loopT rest := by
  rw [DocSM.loopT_append, loopT_prose hs pre hpre]
  simp only [DocSM.loopT, DocSM.step, hs, DocSM.stepInit]
  unfold StartsBlock at hl
  rw [if_pos hl]

theorem loopT_none_start {sm : DocSM} (hs : sm.state = .init) (pre : List GoString) (l : GoString)
    (rest : List GoString) (hpre : ∀ l ∈ pre, Prose l) (hl : SaysNone l) :
    sm.loopT (pre ++ l :: rest) = ({ sm with noCodesOk := true, state := .done } : DocSM).loopT rest := by
  rw [DocSM.loopT_append, loopT_prose hs pre hpre]
  simp only [DocSM.loopT, DocSM.step, hs, DocSM.stepInit]
  have h0 : ¬ StartsBlock l := fun h => startsBlock_not_none h hl
  unfold StartsBlock at h0
  rw [if_neg h0, if_pos ((hasPrefix_iff _ _).2 hl)]

theorem runDocs_eq (doc : GoString) :
    runDocs doc = match DocSM.start.loopT (lines doc) with
      | .error e => .error e
      | .ok sm => .ok ⟨sm.seen, sm.param, sm.noCodesOk⟩ := by
  rw [runDocs, DocSM.loop_eq_loopT]; rfl

theorem runDocs_sound {doc : GoString} {r : DocResult} (h : runDocs doc = .ok r) :
    Declares (lines doc) (· ∈ r.codes) r.param r.none := by
  rw [runDocs_eq] at h
  generalize lines doc = ls at h
  cases hl : DocSM.start.loopT ls with
  | error e => rw [hl] at h; cases h
  | ok sm =>
    rw [hl] at h
    simp only [Except.ok.injEq] at h
    subst h
    dsimp only
    rcases loopT_start_split ls with hp | ⟨pre, l, post, rfl, hpre, hst⟩
    · rw [loopT_prose rfl ls hp] at hl
      simp only [Except.ok.injEq] at hl
      subst hl
      have : (fun x => x ∈ DocSM.start.seen) = fun _ => False := by
        funext x; simp [DocSM.start]
      rw [this]; exact .nothing hp
    · rcases hst with hst | hst
      · rw [loopT_block_start rfl pre l post hpre hst] at hl
        cases post with
        | nil =>
          simp only [DocSM.loopT, Except.ok.injEq] at hl
          subst hl
          have : (fun x => x ∈ DocSM.start.seen) = fun _ => False := by
            funext x; simp [DocSM.start]
          show Declares _ (fun x => x ∈ DocSM.start.seen) _ _
          rw [this]; exact .unfinished hpre hst
        | cons x post =>
          simp only [DocSM.loopT, DocSM.step, DocSM.stepNeedBlankLine] at hl
          by_cases hx : x = []
          · subst hx
            simp only [if_true] at hl
            obtain ⟨block, tail, rfl, hB, hT, hno, hseen, hpar⟩ := loopT_parsing_sound rfl _ hl
            have e1 : (fun x => x ∈ sm.seen) = fun c => ∃ l ∈ block, EntryCode l c := by
              funext c; rw [hseen]; simp [DocSM.start]
            rw [e1, hno]
            exact .block hpre hst hB ((blockParamFrom_nil _ _).1 hpar) hT
          · rw [if_neg hx] at hl; cases hl
      · rw [loopT_none_start rfl pre l post hpre hst, loopT_done rfl] at hl
        obtain ⟨rfl, hpost⟩ := hl
        have : (fun x => x ∈ DocSM.start.seen) = fun _ => False := by
          funext x; simp [DocSM.start]
        show Declares _ (fun x => x ∈ DocSM.start.seen) _ _
        rw [this]; exact .none hpre hst hpost

theorem block_split_unique {block block' tail tail' : List GoString}
    (hB : ∀ l ∈ block, BlockLine l) (hB' : ∀ l ∈ block', BlockLine l)
    (hT : AfterBlock tail) (hT' : AfterBlock tail') (h : block ++ tail = block' ++ tail') :
    block = block' := by
  induction block generalizing block' with
  | nil =>
    cases block' with
    | nil => rfl
    | cons x b' =>
      have hx := (hB' x (by simp)).1
      rcases hT with rfl | ⟨post, rfl, _⟩
      · simp at h
      · simp at h; exact absurd h.1 hx
  | cons y b ih =>
    cases block' with
    | nil =>
      have hy := (hB y (by simp)).1
      rcases hT' with rfl | ⟨post, rfl, _⟩
      · simp at h
      · simp at h; exact absurd h.1 hy
    | cons x b' =>
      simp at h
      rw [h.1, ih (fun l hl => hB l (by simp [hl])) (fun l hl => hB' l (by simp [hl])) h.2]

theorem entryParam_unique {l p p' : GoString} (h : EntryParam l p) (h' : EntryParam l p') : p = p' := by
  obtain ⟨_, x1, t1, e1⟩ := h
  obtain ⟨_, x2, t2, e2⟩ := h'
  have := List.append_cancel_left (entryText_unique t1 t2)
  rw [e1, e2, this]

theorem blockParam_unique {block : List GoString} {p p' : GoString} (h : BlockParam block p)
    (h' : BlockParam block p') : p = p' := by
  rcases h with ⟨h1, h2⟩ | ⟨b1, l, b2, rfl, h1, h2⟩
  · rcases h' with ⟨h1', h2'⟩ | ⟨b1', l', b2', rfl, h1', h2'⟩
    · rw [h1, h1']
    · exact absurd h1' (h2 _ (by simp) _)
  · rcases h' with ⟨h1', h2'⟩ | ⟨b1', l', b2', e, h1', h2'⟩
    · exact absurd h1 (h2' _ (by simp) _)
    · by_cases hl : l = l'
      · subst hl; exact entryParam_unique h1 h1'
      · have : l ∈ b1' ++ l' :: b2' := by rw [← e]; simp
        simp only [List.mem_append, List.mem_cons] at this
        refine absurd h1 (h2' l ?_ _)
        simp only [List.mem_append]
        rcases this with h | h | h
        · exact .inl h
        · exact absurd h hl
        · exact .inr h

theorem runDocs_complete {doc : GoString} {C : GoString → Prop} {param : GoString} {none : Bool}
    (h : Declares (lines doc) C param none) :
    ∃ r, runDocs doc = .ok r ∧ (∀ c, c ∈ r.codes ↔ C c) ∧ r.param = param ∧ r.none = none := by
  rw [runDocs_eq]
  generalize lines doc = ls at h
  cases h with
  | nothing hp => exact ⟨_, by rw [loopT_prose rfl ls hp], by simp [DocSM.start], rfl, rfl⟩
  | none hpre hst hpost =>
    refine ⟨_, by rw [loopT_none_start rfl _ _ _ hpre hst, (loopT_done rfl _ _).2 ⟨rfl, hpost⟩],
      by simp [DocSM.start], rfl, rfl⟩
  | unfinished hpre hst =>
    exact ⟨_, by rw [loopT_block_start rfl _ _ _ hpre hst]; rfl, by simp [DocSM.start], rfl, rfl⟩
  | @block pre l block tail param hpre hst hB hP hT =>
    obtain ⟨sm', h'⟩ := loopT_parsing_complete
      (sm := { DocSM.start with state := .parsing }) rfl _ _ hB hT _ ((blockParamFrom_nil _ _).2 hP)
    obtain ⟨block', tail', e, hB', hT', hno, hseen, hpar⟩ := loopT_parsing_sound rfl _ h'
    have := block_split_unique hB hB' hT hT' e
    subst this
    refine ⟨⟨sm'.seen, sm'.param, sm'.noCodesOk⟩, ?_, ?_, ?_, hno⟩
    · rw [loopT_block_start rfl _ _ _ hpre hst]
      simp [DocSM.loopT, DocSM.step, DocSM.stepNeedBlankLine, h']
    · intro c; rw [hseen]; simp [DocSM.start]
    · exact (blockParam_unique hP ((blockParamFrom_nil _ _).1 hpar)).symm

end Serum

namespace Serum

theorem DocSM.loopT_nodup {sm sm' : DocSM} (ls : List GoString) (hs : sm.seen.Nodup)
    (h : sm.loopT ls = .ok sm') : sm'.seen.Nodup := by
  induction ls generalizing sm with
  | nil => simp [DocSM.loopT] at h; subst h; exact hs
  | cons l ls ih =>
    simp only [DocSM.loopT] at h
    cases hst : sm.step l with
    | error e => rw [hst] at h; cases h
    | ok sm1 =>
      rw [hst] at h
      refine ih ?_ h
      unfold DocSM.step at hst
      split at hst
      · simp at hst; subst hst; unfold DocSM.stepInit; split
        · exact hs
        · split <;> exact hs
      · unfold DocSM.stepNeedBlankLine at hst
        split at hst
        · simp at hst; subst hst; exact hs
        · cases hst
      · unfold DocSM.stepParsing at hst
        split at hst
        · simp at hst; subst hst; exact hs
        · split at hst
          · cases hst
          · split at hst
            · rename_i hd
              rcases stepEntry_ok ((GoStr.hasPrefix_iff _ _).1 hd) hst with ⟨c, _, rfl⟩ | ⟨p, _, _, rfl⟩
              · exact CodeSet.nodup_add hs c
              · exact hs
            · simp at hst; subst hst; exact hs
      · unfold DocSM.stepDone at hst
        split at hst
        · cases hst
        · simp at hst; subst hst; exact hs

theorem runDocs_nodup {doc : GoString} {r : DocResult} (h : runDocs doc = .ok r) : r.codes.Nodup := by
  rw [runDocs_eq] at h
  cases hl : DocSM.start.loopT (DocGrammar.lines doc) with
  | error e => rw [hl] at h; cases h
  | ok sm =>
    rw [hl] at h; simp at h; subst h
    exact DocSM.loopT_nodup _ (by simp [DocSM.start]) hl

end Serum
