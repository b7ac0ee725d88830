import Verif.DocWriter

/-!
# C02–C07 — docstring declarations

`runDocs doc` is the model of parsing a doc comment with text `doc`; the grammar it is compared to is
`Spec/DocGrammar.lean`.
-/

namespace Serum.Props.ErrorDocs
open Serum Serum.GoStr Serum.CodeFormat Serum.DocGrammar

/-! ## C02 -/

/-- **C02.** Parsing succeeds with codes `C`, parameter `param` and flag `none` iff the comment has
the documented shape declaring exactly these. -/
theorem parse_iff_grammar (doc : GoString) (C : GoString → Prop) (param : GoString) (none : Bool) :
    (∃ r, runDocs doc = .ok r ∧ (∀ c, c ∈ r.codes ↔ C c) ∧ r.param = param ∧ r.none = none) ↔
      Declares (lines doc) C param none := by
  constructor
  · rintro ⟨r, h, hc, rfl, rfl⟩
    have : C = (· ∈ r.codes) := by funext c; exact propext (hc c).symm
    rw [this]; exact runDocs_sound h
  · exact runDocs_complete

/-- **C02.** Parsing fails iff the comment does not have the documented shape. -/
theorem parse_fails_iff (doc : GoString) :
    (∃ e, runDocs doc = .error e) ↔ ¬ ∃ C param none, Declares (lines doc) C param none := by
  constructor
  · rintro ⟨e, h⟩ ⟨C, p, n, hd⟩
    obtain ⟨r, hr, _⟩ := runDocs_complete hd
    rw [h] at hr; cases hr
  · intro h
    cases hr : runDocs doc with
    | error e => exact ⟨e, rfl⟩
    | ok r => exact absurd ⟨_, _, _, runDocs_sound hr⟩ h

/-- **C02.** The grammar is unambiguous: a comment declares at most one thing. -/
theorem grammar_unambiguous (doc : GoString) {C C' : GoString → Prop} {p p' : GoString} {n n' : Bool}
    (h : Declares (lines doc) C p n) (h' : Declares (lines doc) C' p' n') :
    (∀ c, C c ↔ C' c) ∧ p = p' ∧ n = n' := by
  obtain ⟨r, e, h1, h2, h3⟩ := runDocs_complete h
  obtain ⟨r', e', h1', h2', h3'⟩ := runDocs_complete h'
  rw [e] at e'; simp only [Except.ok.injEq] at e'; subst e'
  exact ⟨fun c => (h1 c).symm.trans (h1' c), h2.symm.trans h2', h3.symm.trans h3'⟩

-- Non-vacuity: a comment with prose, two codes (one twice), a text line and a parameter.
example : runDocs b!"F does things.\nErrors:\n\n  - a-code   -- first\n    more text\n  - b2 -- x\n  - a-code -- again\n  - param: code -- the code\n\nMore prose.\n"
    = .ok ⟨[b!"a-code", b!"b2"], b!"code", false⟩ := by decide +kernel

example : ∃ C, Declares (lines b!"F.\nErrors:\n\n - a -- x\n") C [] false ∧ C b!"a" :=
  ⟨_, (parse_iff_grammar _ _ _ _).1 ⟨⟨[b!"a"], [], false⟩, by decide +kernel, fun _ => Iff.rfl, rfl, rfl⟩,
    by simp⟩

/-! ## C03 -/

/-- A line of a declaration block as a programmer writes it. -/
inductive DocItem
  | code (c : GoString) (pad : Nat) (comment : GoString)
  | param (p : GoString) (pad : Nat) (comment : GoString)
  | text (t : GoString)

/-- Lines written: `<indent>- code<spaces> --comment`, `<indent>- param: name<spaces> --comment`, or
free text. -/
def DocItem.line (indent : GoString) : DocItem → GoString
  | .code c pad cm => entryLine indent c pad cm
  | .param p pad cm => entryLine indent (b!"param: " ++ p) pad cm
  | .text t => t

/-- Well-formedness: well-formed codes, usable parameter names, arbitrary one-line comments; text
lines must not be blank, not start with `- ` and not carry the `Errors:` indicator. -/
def DocItem.Ok : DocItem → Prop
  | .code c _ cm => WellFormed c ∧ (10 : UInt8) ∉ cm
  | .param p _ cm => ParamName p ∧ (10 : UInt8) ∉ cm
  | .text t => (10 : UInt8) ∉ t ∧ trimSpace t ≠ [] ∧ ¬ b!"- " <+: trimSpace t ∧
      ¬ HasIndicator (trimSpace t)

/-- The whole comment: prose, `Errors:`, blank line, items, blank line, more prose. -/
def writeDoc (intro : List GoString) (indent : GoString) (items : List DocItem) (outro : List GoString) :
    GoString :=
  docOf (intro ++ b!"Errors:" :: [] :: (items.map (DocItem.line indent) ++ ([] :: outro)))

theorem item_blockLine {indent : GoString} (hi : IsBlank indent) (it : DocItem) (h : it.Ok) :
    BlockLine (trimSpace (it.line indent)) := by
  have key : ∀ {l t : GoString}, EntryText l t → l ≠ [] ∧ ¬ HasIndicator l := by
    intro l t ht
    obtain ⟨r, rfl⟩ := entryText_dash ht
    exact ⟨by simp, by rintro ⟨s, hs⟩; simp at hs⟩
  cases it with
  | code c pad cm =>
    have := entryCode_line (comment := cm) (pad := pad) hi h.1
    exact ⟨(key this.1).1, (key this.1).2, fun _ => .inl ⟨c, this⟩⟩
  | param p pad cm =>
    have := entryParam_line (comment := cm) (pad := pad) hi h.1
    obtain ⟨_, x, ht, _⟩ := id this
    exact ⟨(key ht).1, (key ht).2, fun _ => .inr ⟨p, this⟩⟩
  | text t => exact ⟨h.2.1, h.2.2.2, fun c => absurd c h.2.2.1⟩

theorem item_code_iff {indent : GoString} (hi : IsBlank indent) (it : DocItem) (h : it.Ok) (c : GoString) :
    EntryCode (trimSpace (it.line indent)) c ↔ ∃ pad cm, it = .code c pad cm := by
  cases it with
  | code c' pad cm =>
    have := entryCode_line (comment := cm) (pad := pad) hi h.1
    constructor
    · intro h'; exact ⟨pad, cm, by rw [entryText_unique h'.1 this.1]⟩
    · rintro ⟨pad', cm', e⟩
      simp only [DocItem.code.injEq] at e
      rw [e.1] at this; rw [e.1]; exact this
  | param p pad cm =>
    have := entryParam_line (comment := cm) (pad := pad) hi h.1
    constructor
    · intro h'; exact absurd this (entryCode_not_param h')
    · rintro ⟨_, _, e⟩; cases e
  | text t =>
    constructor
    · intro h'; exact absurd (entryText_dash h'.1) h.2.2.1
    · rintro ⟨_, _, e⟩; cases e

theorem item_param_iff {indent : GoString} (hi : IsBlank indent) (it : DocItem) (h : it.Ok) (p : GoString) :
    EntryParam (trimSpace (it.line indent)) p ↔ ∃ pad cm, it = .param p pad cm := by
  cases it with
  | code c' pad cm =>
    have := entryCode_line (comment := cm) (pad := pad) hi h.1
    constructor
    · intro h'; exact absurd h' (entryCode_not_param this)
    · rintro ⟨_, _, e⟩; cases e
  | param p' pad cm =>
    have := entryParam_line (comment := cm) (pad := pad) hi h.1
    constructor
    · intro h'
      exact ⟨pad, cm, by rw [entryParam_unique h' this]⟩
    · rintro ⟨pad', cm', e⟩
      simp only [DocItem.param.injEq] at e
      rw [e.1] at this; rw [e.1]; exact this
  | text t =>
    constructor
    · rintro ⟨_, x, ht, _⟩; exact absurd (entryText_dash ht) h.2.2.1
    · rintro ⟨_, _, e⟩; cases e

/-- The names declared by `param:` items. -/
def paramsOf (items : List DocItem) : List GoString :=
  items.filterMap fun | .param p _ _ => some p | _ => none

theorem items_blockParam {indent : GoString} (hi : IsBlank indent) (items : List DocItem)
    (h : ∀ it ∈ items, it.Ok) (param : GoString)
    (hp : (paramsOf items = [] ∧ param = []) ∨ paramsOf items = [param]) :
    BlockParam (items.map fun it => trimSpace (it.line indent)) param := by
  induction items with
  | nil =>
    rcases hp with ⟨_, h2⟩ | h1
    · exact .inl ⟨h2, by simp⟩
    · simp [paramsOf] at h1
  | cons it items ih =>
    have hit := h it (by simp)
    have hrest := fun x hx => h x (List.mem_cons_of_mem it hx)
    have nop : ∀ items : List DocItem, (∀ it ∈ items, it.Ok) → paramsOf items = [] →
        ∀ l ∈ items.map (fun it => trimSpace (it.line indent)), ∀ p, ¬ EntryParam l p := by
      intro items ho he l hl p hep
      obtain ⟨x, hx, rfl⟩ := List.mem_map.1 hl
      obtain ⟨pad, cm, rfl⟩ := (item_param_iff hi x (ho x hx) p).1 hep
      have : p ∈ paramsOf items := List.mem_filterMap.2 ⟨_, hx, rfl⟩
      rw [he] at this; simp at this
    by_cases hpar : ∃ p pad cm, it = .param p pad cm
    · obtain ⟨p, pad, cm, rfl⟩ := hpar
      have e : paramsOf (.param p pad cm :: items) = p :: paramsOf items := rfl
      rw [e] at hp
      rcases hp with ⟨h1, _⟩ | h1
      · cases h1
      · simp at h1
        obtain ⟨rfl, h2⟩ := h1
        exact .inr ⟨[], _, _, rfl, (item_param_iff hi _ hit _).2 ⟨pad, cm, rfl⟩,
          by simpa using nop items hrest h2⟩
    · have e : paramsOf (it :: items) = paramsOf items := by
        cases it with
        | code => rfl
        | text => rfl
        | param p pad cm => exact absurd ⟨p, pad, cm, rfl⟩ hpar
      rw [e] at hp
      have hno : ∀ p, ¬ EntryParam (trimSpace (it.line indent)) p := by
        intro p hep
        obtain ⟨pad, cm, e⟩ := (item_param_iff hi it hit p).1 hep
        exact hpar ⟨p, pad, cm, e⟩
      rcases ih hrest hp with ⟨h1, h2⟩ | ⟨b1, l, b2, hb, h1, h2⟩
      · refine .inl ⟨h1, ?_⟩
        intro l hl
        rcases List.mem_cons.1 hl with rfl | hl
        · exact hno
        · exact h2 l hl
      · refine .inr ⟨trimSpace (it.line indent) :: b1, l, b2, by simp [hb], h1, ?_⟩
        intro x hx
        rcases List.mem_cons.1 hx with rfl | hx
        · exact hno
        · exact h2 x hx

theorem line_no_newline {indent : GoString} (hn : (10 : UInt8) ∉ indent) (it : DocItem) (h : it.Ok) :
    (10 : UInt8) ∉ it.line indent := by
  have rep : ∀ n : Nat, (10 : UInt8) ∉ List.replicate n (32 : UInt8) := by
    intro n c; have := List.eq_of_mem_replicate c; revert this; decide
  cases it with
  | code c pad cm =>
    simp only [DocItem.line, entryLine, List.mem_append, not_or]
    exact ⟨hn, ⟨⟨by decide, wellFormed_no_newline h.1, rep pad⟩, by decide⟩, h.2⟩
  | param p pad cm =>
    simp only [DocItem.line, entryLine, List.mem_append, not_or]
    exact ⟨hn, ⟨⟨by decide, ⟨by decide, h.1.2.2.2.1⟩, rep pad⟩, by decide⟩, h.2⟩
  | text t => exact h.1

/-- **C03.** For every list of items — well-formed codes (repetitions allowed) with arbitrary one-line
comments, alignment and indentation, text lines, at most one parameter — and arbitrary prose around,
the written comment parses back to exactly the set of codes written, without duplicates, and exactly
the parameter written. -/
theorem write_read (intro outro : List GoString) (indent : GoString) (items : List DocItem)
    (param : GoString)
    (hintro : ∀ l ∈ intro, (10 : UInt8) ∉ l ∧ Prose (trimSpace l))
    (houtro : ∀ l ∈ outro, (10 : UInt8) ∉ l ∧ ¬ HasIndicator (trimSpace l))
    (hind : IsBlank indent) (hindn : (10 : UInt8) ∉ indent)
    (hitems : ∀ it ∈ items, it.Ok)
    (hparam : (paramsOf items = [] ∧ param = []) ∨ paramsOf items = [param]) :
    ∃ r, runDocs (writeDoc intro indent items outro) = .ok r ∧ r.codes.Nodup ∧
      (∀ c, c ∈ r.codes ↔ ∃ pad cm, DocItem.code c pad cm ∈ items) ∧ r.param = param ∧ r.none = false := by
  have hl : lines (writeDoc intro indent items outro) = intro.map trimSpace ++ b!"Errors:" :: [] ::
      ((items.map fun it => trimSpace (it.line indent)) ++ ([] :: outro.map trimSpace)) := by
    unfold writeDoc
    rw [lines_docOf (by simp)]
    · simp only [List.map_append, List.map_cons, List.map_map]
      rw [show trimSpace b!"Errors:" = b!"Errors:" from trimSpace_of_trimmed (trimmed_of_ends (by decide) (by decide)),
        show trimSpace [] = [] from rfl]
      rfl
    · intro l hl
      simp only [List.mem_append, List.mem_cons, List.mem_map] at hl
      rcases hl with h | rfl | rfl | ⟨it, h, rfl⟩ | rfl | h
      · exact (hintro l h).1
      · decide
      · simp
      · exact line_no_newline hindn it (hitems it h)
      · simp
      · exact (houtro l h).1
  have hd : Declares (lines (writeDoc intro indent items outro))
      (fun c => ∃ l ∈ items.map fun it => trimSpace (it.line indent), EntryCode l c) param false := by
    rw [hl]
    refine .block ?_ rfl ?_ (items_blockParam hind items hitems param hparam) (.inr ⟨_, rfl, ?_⟩)
    · intro l h; obtain ⟨x, hx, rfl⟩ := List.mem_map.1 h; exact (hintro x hx).2
    · intro l h; obtain ⟨x, hx, rfl⟩ := List.mem_map.1 h; exact item_blockLine hind x (hitems x hx)
    · intro l h; obtain ⟨x, hx, rfl⟩ := List.mem_map.1 h; exact (houtro x hx).2
  obtain ⟨r, hr, hc, hp, hn⟩ := runDocs_complete hd
  refine ⟨r, hr, ?_, ?_, hp, hn⟩
  · -- no duplicates
    exact runDocs_nodup hr
  · intro c
    rw [hc]
    constructor
    · rintro ⟨l, h, he⟩
      obtain ⟨x, hx, rfl⟩ := List.mem_map.1 h
      obtain ⟨pad, cm, rfl⟩ := (item_code_iff hind x (hitems x hx) c).1 he
      exact ⟨pad, cm, hx⟩
    · rintro ⟨pad, cm, hx⟩
      exact ⟨_, List.mem_map_of_mem hx, (item_code_iff hind _ (hitems _ hx) c).2 ⟨pad, cm, rfl⟩⟩

-- Non-vacuity: the hypotheses hold for a comment with two codes, one repeated, a parameter, a text line.
example : (∀ it ∈ [DocItem.code b!"a-b" 3 b!" first -- with dashes", .text b!"   and more",
      .param b!"code" 0 b!"", .code b!"a-b" 0 b!" again", .code b!"z" 0 []], it.Ok) := by
  have wf : WellFormed b!"a-b" := (isErrorCodeValid_iff_wellFormed _).1 (by decide)
  have wz : WellFormed b!"z" := (isErrorCodeValid_iff_wellFormed _).1 (by decide)
  have hpn : ParamName b!"code" :=
    ⟨by decide, trimmed_of_ends (by decide) (by decide), by decide, by decide, by decide⟩
  intro it hit
  simp only [List.mem_cons, List.not_mem_nil, or_false] at hit
  rcases hit with rfl | rfl | rfl | rfl | rfl
  · exact ⟨wf, by decide⟩
  · refine ⟨by decide, by decide, ?_, ?_⟩
    · rw [← hasPrefix_iff]; decide
    · rw [HasIndicator, ← hasPrefix_iff]; decide
  · exact ⟨hpn, by decide⟩
  · exact ⟨wf, by decide⟩
  · exact ⟨wz, by decide⟩

/-! ## C04 -/

/-- **C04 (before).** Prose lines in front of a comment never change the result (success or
failure). -/
theorem prose_before (pre ls : List GoString) (hne : ls ≠ []) (hn : ∀ l ∈ pre ++ ls, (10 : UInt8) ∉ l)
    (hp : ∀ l ∈ pre, Prose (trimSpace l)) : runDocs (docOf (pre ++ ls)) = runDocs (docOf ls) := by
  rw [runDocs_docOf (by simp [hne]) hn, runDocs_docOf hne fun l h => hn l (by simp [h]), List.map_append,
    DocSM.loopT_append, loopT_prose rfl]
  intro l h; obtain ⟨x, hx, rfl⟩ := List.mem_map.1 h; exact hp x hx

/-- **C04 (after a block).** Lines after the blank line closing a declaration block never change the
result, provided none carries the `Errors:` indicator. -/
theorem prose_after_block (pre block post : List GoString) (e b₁ b₂ : GoString)
    (hn : ∀ l ∈ pre ++ e :: b₁ :: (block ++ b₂ :: post), (10 : UInt8) ∉ l)
    (hpre : ∀ l ∈ pre, Prose (trimSpace l)) (he : trimSpace e = b!"Errors:")
    (hb₁ : trimSpace b₁ = []) (hb₂ : trimSpace b₂ = [])
    (hpost : ∀ l ∈ post, ¬ HasIndicator (trimSpace l)) :
    runDocs (docOf (pre ++ e :: b₁ :: (block ++ b₂ :: post))) =
      runDocs (docOf (pre ++ e :: b₁ :: (block ++ [b₂]))) := by
  have hpre' : ∀ l ∈ pre.map trimSpace, Prose l := by
    intro l h; obtain ⟨x, hx, rfl⟩ := List.mem_map.1 h; exact hpre x hx
  have hpost' : ∀ l ∈ post.map trimSpace, ¬ HasIndicator l := by
    intro l h; obtain ⟨x, hx, rfl⟩ := List.mem_map.1 h; exact hpost x hx
  rw [runDocs_docOf (by simp) hn, runDocs_docOf (by simp) (fun l h => hn l (by
    simp only [List.mem_append, List.mem_cons, List.not_mem_nil, or_false] at h ⊢
    rcases h with h | h | h | h | h
    · exact .inl h
    · exact .inr (.inl h)
    · exact .inr (.inr (.inl h))
    · exact .inr (.inr (.inr (.inl h)))
    · exact .inr (.inr (.inr (.inr (.inl h))))))]
  simp only [List.map_append, List.map_cons, List.map_nil, he, hb₁, hb₂]
  rw [loopT_opened rfl _ _ hpre' rfl, loopT_opened rfl _ _ hpre' rfl]
  have : (List.map trimSpace block ++ [] :: List.map trimSpace post) =
      (List.map trimSpace block ++ [[]]) ++ List.map trimSpace post := by simp
  rw [this, DocSM.loopT_append]
  cases hr : DocSM.loopT { DocSM.start with state := .parsing } (List.map trimSpace block ++ [[]]) with
  | error e => rfl
  | ok sm =>
    have := loopT_closed _ (.inl rfl) hr
    dsimp only
    rw [(loopT_done this _ _).2 ⟨rfl, hpost'⟩]

/-- **C04 (after `Errors: none`).** -/
theorem prose_after_none (pre post : List GoString) (e : GoString)
    (hn : ∀ l ∈ pre ++ e :: post, (10 : UInt8) ∉ l)
    (hpre : ∀ l ∈ pre, Prose (trimSpace l)) (he : SaysNone (trimSpace e))
    (hpost : ∀ l ∈ post, ¬ HasIndicator (trimSpace l)) :
    runDocs (docOf (pre ++ e :: post)) = runDocs (docOf (pre ++ [e])) := by
  have hpre' : ∀ l ∈ pre.map trimSpace, Prose l := by
    intro l h; obtain ⟨x, hx, rfl⟩ := List.mem_map.1 h; exact hpre x hx
  have hpost' : ∀ l ∈ post.map trimSpace, ¬ HasIndicator l := by
    intro l h; obtain ⟨x, hx, rfl⟩ := List.mem_map.1 h; exact hpost x hx
  rw [runDocs_docOf (by simp) hn, runDocs_docOf (by simp) (fun l h => hn l (by
    simp only [List.mem_append, List.mem_cons, List.not_mem_nil, or_false] at h ⊢
    rcases h with h | h
    · exact .inl h
    · exact .inr (.inl h)))]
  simp only [List.map_append, List.map_cons, List.map_nil]
  rw [loopT_none_start rfl _ _ _ hpre' he, loopT_none_start rfl _ _ _ hpre' he,
    (loopT_done rfl _ _).2 ⟨rfl, hpost'⟩]
  rfl

/-- **C04 (inside).** A non-blank line that does not start with `- ` and has no indicator, inserted
anywhere after the blank line that opens the block, never changes the result. -/
theorem text_inside_block (pre l₁ l₂ : List GoString) (e b₁ x : GoString)
    (hn : ∀ l ∈ pre ++ e :: b₁ :: (l₁ ++ x :: l₂), (10 : UInt8) ∉ l)
    (hpre : ∀ l ∈ pre, Prose (trimSpace l)) (he : trimSpace e = b!"Errors:") (hb₁ : trimSpace b₁ = [])
    (hx₁ : trimSpace x ≠ []) (hx₂ : ¬ HasIndicator (trimSpace x)) (hx₃ : ¬ b!"- " <+: trimSpace x) :
    runDocs (docOf (pre ++ e :: b₁ :: (l₁ ++ x :: l₂))) = runDocs (docOf (pre ++ e :: b₁ :: (l₁ ++ l₂))) := by
  have hpre' : ∀ l ∈ pre.map trimSpace, Prose l := by
    intro l h; obtain ⟨x, hx, rfl⟩ := List.mem_map.1 h; exact hpre x hx
  rw [runDocs_docOf (by simp) hn, runDocs_docOf (by simp) (fun l h => hn l (by
    simp only [List.mem_append, List.mem_cons] at h ⊢
    rcases h with h | h | h | h | h
    · exact .inl h
    · exact .inr (.inl h)
    · exact .inr (.inr (.inl h))
    · exact .inr (.inr (.inr (.inl h)))
    · exact .inr (.inr (.inr (.inr (.inr h))))))]
  simp only [List.map_append, List.map_cons, he, hb₁]
  rw [loopT_opened rfl _ _ hpre' rfl, loopT_opened rfl _ _ hpre' rfl, DocSM.loopT_append, DocSM.loopT_append]
  cases hr : DocSM.loopT { DocSM.start with state := .parsing } (List.map trimSpace l₁) with
  | error e => rfl
  | ok sm =>
    have hopen := loopT_keeps_open _ (.inl rfl) hr
    dsimp only
    rw [DocSM.loopT, step_text hopen hx₁ hx₂ hx₃]

/-- **C04 (indentation).** White space added at either end of any lines never changes the result. -/
theorem indentation (ls : List (GoString × GoString × GoString)) (hne : ls ≠ [])
    (h : ∀ l ∈ ls, IsBlank l.1 ∧ IsBlank l.2.2 ∧ (10 : UInt8) ∉ l.1 ++ l.2.1 ++ l.2.2) :
    runDocs (docOf (ls.map fun l => l.1 ++ l.2.1 ++ l.2.2)) = runDocs (docOf (ls.map fun l => l.2.1)) := by
  rw [runDocs_docOf (by simp [hne]), runDocs_docOf (by simp [hne])]
  · congr 2
    rw [List.map_map, List.map_map]
    apply List.map_congr_left
    intro l hl
    exact trimSpace_pad (h l hl).1 (h l hl).2.1 l.2.1
  · intro l hl
    obtain ⟨x, hx, rfl⟩ := List.mem_map.1 hl
    intro c
    exact (h x hx).2.2 (by simp [c])
  · intro l hl
    obtain ⟨x, hx, rfl⟩ := List.mem_map.1 hl
    exact (h x hx).2.2

example : IsBlank b!" \t " ∧ runDocs b!"Errors:\n\n - a -- x\nnoise" = .ok ⟨[b!"a"], [], false⟩ ∧
    ¬ HasIndicator (trimSpace b!"noise") :=
  ⟨(trimSpace_nil_iff _).1 (by decide), by decide +kernel, by
    rw [HasIndicator, ← hasPrefix_iff]; decide⟩

/-! ## C05 -/

/-- **C05.** An `Errors:` line followed by a non-blank line is refused. -/
theorem no_blank_line_refused (pre rest : List GoString) (e l doc : GoString)
    (hd : lines doc = pre ++ e :: l :: rest) (hpre : ∀ l ∈ pre, Prose l) (he : StartsBlock e) (hl : l ≠ []) :
    runDocs doc = .error .needBlankLine := by
  rw [runDocs_eq, hd, loopT_block_start rfl _ _ _ hpre he]
  simp [DocSM.loopT, DocSM.step, DocSM.stepNeedBlankLine, hl]

/-- **C05.** A `- ` line in the block that is neither a proper code entry nor a proper parameter entry
is refused. -/
theorem bad_entry_refused (pre b₁ rest : List GoString) (e l doc : GoString)
    (hd : lines doc = pre ++ e :: [] :: (b₁ ++ l :: rest)) (hpre : ∀ l ∈ pre, Prose l)
    (he : StartsBlock e) (hb : ∀ l ∈ b₁, l ≠ []) (hl : b!"- " <+: l)
    (hc : ∀ c, ¬ EntryCode l c) (hp : ∀ p, ¬ EntryParam l p) : ∃ err, runDocs doc = .error err := by
  rw [runDocs_eq, hd, loopT_opened rfl _ _ hpre he, DocSM.loopT_append]
  cases hr : DocSM.loopT { DocSM.start with state := .parsing } b₁ with
  | error e => exact ⟨e, rfl⟩
  | ok sm =>
    have hs := loopT_nonblank_parsing _ rfl hb hr
    dsimp only
    simp only [DocSM.loopT, DocSM.step, hs]
    cases hst : sm.stepParsing l with
    | error e => exact ⟨e, rfl⟩
    | ok sm1 =>
      exfalso
      have hl0 : l ≠ [] := by rintro rfl; obtain ⟨r, hr⟩ := hl; simp at hr
      obtain ⟨⟨_, _, h3⟩, _⟩ := stepParsing_nonblank hl0 hst
      rcases h3 hl with ⟨c, h⟩ | ⟨p, h⟩
      · exact hc c h
      · exact hp p h

/-- **C05.** In particular: a `- ` line without ` --`. -/
theorem entry_without_dashes_refused (pre b₁ rest : List GoString) (e l doc : GoString)
    (hd : lines doc = pre ++ e :: [] :: (b₁ ++ l :: rest)) (hpre : ∀ l ∈ pre, Prose l)
    (he : StartsBlock e) (hb : ∀ l ∈ b₁, l ≠ []) (hl : b!"- " <+: l)
    (hno : ¬ b!" --" <:+: l) : ∃ err, runDocs doc = .error err := by
  have key : ∀ t, ¬ EntryText l t := by
    rintro t ⟨raw, rest, e, _⟩
    exact hno ⟨b!"- " ++ raw, rest, e.symm⟩
  exact bad_entry_refused pre b₁ rest e l doc hd hpre he hb hl (fun c h => key c h.1)
    (fun p h => by obtain ⟨_, x, h, _⟩ := h; exact key _ h)

/-- **C05.** In particular: a malformed (e.g. empty) code that is not a parameter. -/
theorem malformed_code_refused (pre b₁ rest : List GoString) (e l t doc : GoString)
    (hd : lines doc = pre ++ e :: [] :: (b₁ ++ l :: rest)) (hpre : ∀ l ∈ pre, Prose l)
    (he : StartsBlock e) (hb : ∀ l ∈ b₁, l ≠ []) (ht : EntryText l t)
    (hw : ¬ WellFormed t) (hp : ¬ b!"param:" <+: t) : ∃ err, runDocs doc = .error err := by
  refine bad_entry_refused pre b₁ rest e l doc hd hpre he hb (entryText_dash ht) ?_ ?_
  · intro c h; rw [entryText_unique h.1 ht] at h; exact hw h.2
  · rintro p ⟨_, x, h, _⟩
    rw [← entryText_unique h ht] at hp
    exact hp (List.prefix_append _ _)

/-- **C05.** In particular: an empty parameter. -/
theorem blank_param_refused (pre b₁ rest : List GoString) (e l x doc : GoString)
    (hd : lines doc = pre ++ e :: [] :: (b₁ ++ l :: rest)) (hpre : ∀ l ∈ pre, Prose l)
    (he : StartsBlock e) (hb : ∀ l ∈ b₁, l ≠ []) (ht : EntryText l (b!"param:" ++ x))
    (hx : IsBlank x) : ∃ err, runDocs doc = .error err := by
  refine bad_entry_refused pre b₁ rest e l doc hd hpre he hb (entryText_dash ht) ?_ ?_
  · intro c h
    have := entryText_unique h.1 ht
    subst this
    exact wellFormed_not_param h.2 (List.prefix_append _ _)
  · rintro p ⟨hne, y, h, rfl⟩
    have := List.append_cancel_left (entryText_unique h ht)
    subst this
    exact hne ((trimSpace_nil_iff _).2 hx)

/-- **C05.** A second parameter in the same block is refused. -/
theorem second_param_refused (pre b₁ b₂ rest : List GoString) (e l l' p p' doc : GoString)
    (hd : lines doc = pre ++ e :: [] :: (b₁ ++ l :: (b₂ ++ l' :: rest))) (hpre : ∀ l ∈ pre, Prose l)
    (he : StartsBlock e) (hb : ∀ l ∈ b₁ ++ b₂, l ≠ []) (hl : EntryParam l p) (hl' : EntryParam l' p') :
    ∃ err, runDocs doc = .error err := by
  cases hr : runDocs doc with
  | error err => exact ⟨err, rfl⟩
  | ok r =>
    exfalso
    rw [runDocs_eq, hd, loopT_opened rfl _ _ hpre he] at hr
    cases hq : DocSM.loopT { DocSM.start with state := .parsing } (b₁ ++ l :: (b₂ ++ l' :: rest)) with
    | error e => rw [hq] at hr; cases hr
    | ok sm =>
      obtain ⟨block, tail, hbt, hB, hT, _, _, hP⟩ := loopT_parsing_sound rfl _ hq
      have dash : ∀ {l p}, EntryParam l p → l ≠ [] := by
        rintro l p ⟨_, x, ht, _⟩ rfl
        obtain ⟨r, hr⟩ := entryText_dash ht; simp at hr
      -- the part up to l' is non-blank, hence inside the block
      have hin : ∃ rest', block = b₁ ++ l :: (b₂ ++ l' :: rest') := by
        have h1 : (b₁ ++ l :: (b₂ ++ [l'])) ++ rest = block ++ tail := by rw [← hbt]; simp
        rcases List.append_eq_append_iff.1 h1 with ⟨a', h2, h3⟩ | ⟨c', h2, h3⟩
        · exact ⟨a', by rw [h2]; simp⟩
        · rcases hT with rfl | ⟨post, rfl, _⟩
          · have hc : c' = [] := by
              have := h3.symm; simp at this; exact this.1
            subst hc
            exact ⟨[], by simpa using h2.symm⟩
          · cases c' with
            | nil => exact ⟨[], by simpa using h2.symm⟩
            | cons z c' =>
              simp only [List.cons_append, List.cons.injEq] at h3
              have hz : z ∈ b₁ ++ l :: (b₂ ++ [l']) := by rw [h2]; simp
              rw [← h3.1] at hz
              simp only [List.mem_append, List.mem_cons, List.not_mem_nil, or_false] at hz
              rcases hz with h | h | h | h
              · exact absurd rfl (hb [] (by simp [h]))
              · exact absurd h.symm (dash hl)
              · exact absurd rfl (hb [] (by simp [h]))
              · exact absurd h.symm (dash hl')
      obtain ⟨rest', rfl⟩ := hin
      rcases (blockParamFrom_nil _ _).1 hP with ⟨_, h2⟩ | ⟨c₁, y, c₂, hc, hy, h2⟩
      · exact h2 l (by simp) p hl
      · rcases List.append_eq_append_iff.1 hc with ⟨a', h3, h4⟩ | ⟨a', h3, h4⟩
        · -- y at or after l
          cases a' with
          | nil =>
            simp only [List.nil_append, List.cons.injEq] at h4
            refine h2 l' ?_ p' hl'
            rw [← h4.2]; simp
          | cons z a' =>
            simp only [List.cons_append, List.cons.injEq] at h4
            refine h2 l ?_ p hl
            rw [h3, ← h4.1]; simp
        · cases a' with
          | nil =>
            simp only [List.nil_append, List.cons.injEq] at h4
            refine h2 l' ?_ p' hl'
            rw [h4.2]; simp
          | cons z a' =>
            simp only [List.cons_append, List.cons.injEq] at h4
            refine h2 l' ?_ p' hl'
            rw [h4.2]; simp

/-- **C05.** Once a declaration has started, any later line with the `Errors:` indicator is refused. -/
theorem repeated_indicator_refused (pre rest : List GoString) (e l doc : GoString)
    (hd : lines doc = pre ++ e :: rest) (hpre : ∀ l ∈ pre, Prose l) (he : StartsBlock e ∨ SaysNone e)
    (hl : l ∈ rest) (hi : HasIndicator l) : ∃ err, runDocs doc = .error err := by
  cases hr : runDocs doc with
  | error err => exact ⟨err, rfl⟩
  | ok r =>
    exfalso
    rw [runDocs_eq, hd] at hr
    rcases he with he | he
    · rw [loopT_block_start rfl _ _ _ hpre he] at hr
      cases hq : DocSM.loopT { DocSM.start with state := .needBlankLine } rest with
      | error e => rw [hq] at hr; cases hr
      | ok sm => exact (loopT_no_init rest (by simp) hq).2 l hl hi
    · rw [loopT_none_start rfl _ _ _ hpre he] at hr
      cases hq : DocSM.loopT { DocSM.start with noCodesOk := true, state := .done } rest with
      | error e => rw [hq] at hr; cases hr
      | ok sm => exact (loopT_no_init rest (by simp) hq).2 l hl hi

-- Non-vacuity: concrete refused comments for each case.
example : runDocs b!"Errors:\n - a -- x" = .error .needBlankLine := by decide +kernel
example : runDocs b!"Errors:\n\n - a - x" = .error .noDashes := by decide +kernel
example : runDocs b!"Errors:\n\n - -- x" = .error .blankCode := by decide +kernel
example : runDocs b!"Errors:\n\n - 1a -- x" = .error .invalidCode := by decide +kernel
example : runDocs b!"Errors:\n\n - param: -- x" = .error .blankParam := by decide +kernel
example : runDocs b!"Errors:\n\n - param: a -- x\n - param: b -- x" = .error .secondParam := by decide +kernel
example : runDocs b!"Errors:\n\n - a -- x\n\nprose\nErrors: of my ways" = .error .repeatedIndicator := by
  decide +kernel

/-! ## C06 -/

/-- **C06.** The none flag is set exactly when the first declaration line starts with `Errors: none`
and no later line carries the indicator; then no code and no parameter is declared. -/
theorem none_iff (doc : GoString) (r : DocResult) (h : runDocs doc = .ok r) :
    (r.none = true ↔ ∃ pre l post, lines doc = pre ++ l :: post ∧ (∀ l ∈ pre, Prose l) ∧ SaysNone l ∧
      ∀ l ∈ post, ¬ HasIndicator l) ∧
    (r.none = true → r.codes = [] ∧ r.param = []) := by
  have hs := runDocs_sound h
  constructor
  · constructor
    · intro hn
      generalize hl : lines doc = ls at hs
      rw [hn] at hs
      generalize hC : (fun x => x ∈ r.codes) = C at hs
      generalize hP : r.param = p at hs
      cases hs with
      | none h1 h2 h3 => exact ⟨_, _, _, rfl, h1, h2, h3⟩
    · rintro ⟨pre, l, post, hl, h1, h2, h3⟩
      have hd : Declares (lines doc) (fun _ => False) [] true := by rw [hl]; exact .none h1 h2 h3
      exact (grammar_unambiguous doc hs hd).2.2
  · intro hn
    generalize hl : lines doc = ls at hs
    rw [hn] at hs
    generalize hC : (fun x => x ∈ r.codes) = C at hs
    generalize hP : r.param = p at hs
    cases hs with
    | none h1 h2 h3 =>
      refine ⟨?_, rfl⟩
      rw [List.eq_nil_iff_forall_not_mem]
      intro c hc
      have := congrFun hC c
      simp only [hc] at this
      exact this.mp trivial

/-- **C06.** A comment of that shape is always accepted, with exactly this result. -/
theorem none_accepted (doc : GoString) (pre post : List GoString) (l : GoString)
    (hl : lines doc = pre ++ l :: post) (h1 : ∀ l ∈ pre, Prose l) (h2 : SaysNone l)
    (h3 : ∀ l ∈ post, ¬ HasIndicator l) : runDocs doc = .ok ⟨[], [], true⟩ := by
  rw [runDocs_eq, hl, loopT_none_start rfl _ _ _ h1 h2, (loopT_done rfl _ _).2 ⟨rfl, h3⟩]; rfl

example : runDocs b!"F.\nErrors: none -- only to satisfy an interface." = .ok ⟨[], [], true⟩ := by decide +kernel

/-! ## C07 (doc comments; the annotation half is in `Props/Annotations.lean`) -/

/-- **C07.** Every code declared by a doc comment is well-formed. -/
theorem declared_codes_wellFormed (doc : Option GoString) (r : DocResult) (h : findErrorDocs doc = .ok r) :
    ∀ c ∈ r.codes, WellFormed c := by
  cases doc with
  | none => simp [findErrorDocs, DocResult.empty] at h; subst h; simp
  | some doc =>
    have hs := runDocs_sound h
    generalize hl : lines doc = ls at hs
    generalize hC : (fun x => x ∈ r.codes) = C at hs
    generalize hP : r.param = p at hs
    generalize hN : r.none = n at hs
    intro c hc
    have hCc : C c := by rw [← hC]; exact hc
    cases hs with
    | nothing => exact hCc.elim
    | none => exact hCc.elim
    | unfinished => exact hCc.elim
    | block => obtain ⟨l, _, he⟩ := hCc; exact he.2

example : findErrorDocs (some b!"Errors:\n\n - ok-1 -- x") = .ok ⟨[b!"ok-1"], [], false⟩ := by decide +kernel

end Serum.Props.ErrorDocs
