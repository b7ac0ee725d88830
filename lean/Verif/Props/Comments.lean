import Verif.CommentLemmas
import Verif.Props.ErrorDocs
import Verif.Props.Annotations

/-!
# C51 — declarations and annotations are read from comments as they stand in the source

`CommentText.text (g.map Comment.source)` is the text the analyzer gets for the comment group `g`
(`analyse.go:264`, `annotation.go:47`); the specification of the lines of a group is `Spec/CommentSpec.lean`.
-/

namespace Serum.Props.Comments
open Serum Serum.GoStr Serum.CodeFormat Serum.DocGrammar Serum.CommentSpec Serum.CommentText Serum.AnnGrammar
open Serum.Props.ErrorDocs (DocItem paramsOf)

/-- What the analyzer is given of a comment group. -/
def given (g : List Comment) : GoString := CommentText.text (g.map Comment.source)

theorem same_reading {g g' : List Comment} (h : ∀ c ∈ g, c.Ok) (h' : ∀ c ∈ g', c.Ok) (e : reading g = reading g') :
    findErrorDocs (some (given g)) = findErrorDocs (some (given g')) := by
  show runDocs _ = runDocs _
  rw [given, given, runDocs_text g h, runDocs_text g' h', e]

theorem declares_blank_end (ls : List GoString) (hn : ∀ l ∈ ls, (10 : UInt8) ∉ l) (ht : ls.map trimSpace = ls)
    (C : GoString → Prop) (param : GoString) (none : Bool) :
    Declares (ls ++ [[]]) C param none ↔ Declares ls C param none := by
  have e1 : lines (docOf (ls ++ [[]])) = ls ++ [[]] := by
    rw [lines_docOf (by simp)]
    · simp [ht, show trimSpace [] = [] from rfl]
    · intro l hl
      rcases List.mem_append.1 hl with h | h
      · exact hn l h
      · simp at h; simp [h]
  by_cases h0 : ls = []
  · subst h0
    have e0 : Declares [] C param none ↔ Declares [[]] C param none := by
      constructor
      · intro h
        generalize hls : ([] : List GoString) = ls at h
        cases h with
        | nothing _ =>
          exact .nothing (by
            intro l hl
            rw [← hls, List.mem_singleton] at hl
            subst hl
            exact ⟨by unfold StartsBlock; decide, by rintro ⟨r, hr⟩; simp at hr⟩)
        | none => simp at hls
        | unfinished => simp at hls
        | block => simp at hls
      · intro h
        have := (ErrorDocs.parse_iff_grammar [] C param none).2 h
        obtain ⟨r, hr, hc, rfl, rfl⟩ := this
        have er : runDocs [] = .ok ⟨[], [], false⟩ := by decide +kernel
        rw [er] at hr
        simp only [Except.ok.injEq] at hr
        subst hr
        have : C = fun _ => False := by funext c; exact propext ((hc c).symm.trans (by simp))
        rw [this]; exact .nothing (by simp)
    exact e0.symm
  · have e2 : lines (docOf ls) = ls := by rw [lines_docOf h0 hn, ht]
    rw [← e1, ← ErrorDocs.parse_iff_grammar]
    conv => rhs; rw [← e2]
    rw [← ErrorDocs.parse_iff_grammar]
    have : runDocs (docOf (ls ++ [[]])) = runDocs (docOf ls) := by
      rw [runDocs_eq, runDocs_eq, e1, e2]; exact finish_blank_end _ _
    rw [this]

/-- **C51.** A doc comment is accepted, with the given codes, parameter and flag, iff the lines of the group —
directives left out, leading blank lines left out, several blank lines counted once — have the documented shape. -/
theorem source_grammar (g : List Comment) (h : ∀ c ∈ g, c.Ok) (C : GoString → Prop) (param : GoString) (none : Bool) :
    (∃ r, findErrorDocs (some (given g)) = .ok r ∧ (∀ c, c ∈ r.codes ↔ C c) ∧ r.param = param ∧ r.none = none) ↔
      Declares (reading g) C param none := by
  have := ErrorDocs.parse_iff_grammar (given g) C param none
  refine this.trans ?_
  rcases lines_text g h with e | e
  · rw [given, e]
  · rw [given, e]; exact declares_blank_end _ (reading_no_newline g h) (reading_trimmed g) _ _ _

/-! ## Written declarations -/

theorem single_cons2 (a b : GoString) (ls : List GoString) :
    single (a :: b :: ls) = if Vacant a ∧ Vacant b then single (b :: ls) else a :: single (b :: ls) := by
  conv => lhs; unfold single

theorem single_append_nonempty (a b : List GoString) (x : GoString) (hx : ¬ Vacant x) :
    single (a ++ x :: b) = single a ++ x :: single b := by
  have key : ∀ b, single (x :: b) = x :: single b := by
    intro b
    cases b with
    | nil => rfl
    | cons y b => rw [single_cons2, if_neg (fun h => hx h.1)]
  match a with
  | [] => exact key b
  | [y] =>
    show single (y :: x :: b) = _
    rw [single_cons2, if_neg (fun h => hx h.2), key]; rfl
  | y :: z :: a =>
    have ih := single_append_nonempty (z :: a) b x hx
    show single (y :: z :: (a ++ x :: b)) = single (y :: z :: a) ++ _
    rw [single_cons2, single_cons2]
    split
    · exact ih
    · rw [show z :: (a ++ x :: b) = (z :: a) ++ x :: b from rfl, ih]; rfl

theorem single_nonempty (a b : List GoString) (ha : ∀ l ∈ a, ¬ Vacant l) : single (a ++ b) = a ++ single b := by
  induction a with
  | nil => rfl
  | cons x a ih =>
    have := single_append_nonempty [] (a ++ b) x (ha x (by simp))
    rw [List.nil_append] at this
    rw [List.cons_append, this, ih fun l hl => ha l (by simp [hl])]; rfl

theorem single_subset (ls : List GoString) : ∀ l ∈ single ls, l ∈ ls := by
  match ls with
  | [] => intro l hl; exact hl
  | [y] => intro l hl; exact hl
  | y :: z :: ls =>
    have ih := single_subset (z :: ls)
    intro l hl
    unfold single at hl
    split at hl
    · exact List.mem_cons_of_mem _ (ih l hl)
    · rcases List.mem_cons.1 hl with rfl | h
      · simp
      · exact List.mem_cons_of_mem _ (ih l h)

theorem single_vacant (a : GoString) (ls : List GoString) (ha : Vacant a) :
    ∃ x rest, single (a :: ls) = x :: rest ∧ Vacant x ∧ ∀ l ∈ rest, l ∈ ls := by
  induction ls generalizing a with
  | nil => exact ⟨a, [], rfl, ha, by simp⟩
  | cons b ls ih =>
    by_cases hb : Vacant b
    · obtain ⟨x, rest, e, hx, hr⟩ := ih b hb
      refine ⟨x, rest, ?_, hx, fun l hl => List.mem_cons_of_mem _ (hr l hl)⟩
      unfold single
      rw [if_pos ⟨ha, hb⟩, e]
    · refine ⟨a, single (b :: ls), ?_, ha, single_subset _⟩
      conv => lhs; unfold single
      rw [if_neg (fun h => hb h.2)]

/-- Only vacant lines before `rest`: one of them is kept. -/
theorem single_vacants (bs rest : List GoString) (hne : bs ≠ []) (hbs : ∀ l ∈ bs, Vacant l)
    (hr : ∀ l, rest.head? = some l → ¬ Vacant l) : ∃ x, single (bs ++ rest) = x :: single rest ∧ Vacant x := by
  induction bs with
  | nil => exact absurd rfl hne
  | cons b bs ih =>
    cases bs with
    | nil =>
      refine ⟨b, ?_, hbs b (by simp)⟩
      cases rest with
      | nil => rfl
      | cons y rest =>
        show single (b :: y :: rest) = _
        conv => lhs; unfold single
        rw [if_neg (fun h => hr y rfl h.2)]
    | cons c bs =>
      obtain ⟨x, e, hx⟩ := ih (by simp) (fun l hl => hbs l (by simp [hl]))
      refine ⟨x, ?_, hx⟩
      show single (b :: c :: (bs ++ rest)) = _
      rw [single_cons2, if_pos ⟨hbs b (by simp), hbs c (by simp)⟩]
      exact e

theorem not_vacant {l : GoString} (h : trimSpace l ≠ []) : ¬ Vacant l := fun c => h (trimSpace_empty c)

/-- The lines read are lines of the comment. -/
theorem collapse_subset (ls : List GoString) : ∀ l ∈ collapse ls, l ∈ ls := fun l hl =>
  (List.dropWhile_suffix _).subset (single_subset _ l hl)

/-- **C51**, round trip from the source. Whatever mixture of `//` and `/* */` comments and directives the group consists of: if its
lines are prose, `Errors:`, one or more blank lines, the written items, and then nothing or a blank line and further prose, exactly
the codes written are declared, and exactly the parameter written. -/
theorem source_round_trip (g : List Comment) (h : ∀ c ∈ g, c.Ok) (intro blanks after outro : List GoString) (e indent : GoString)
    (items : List DocItem) (param : GoString)
    (hg : linesOf g = intro ++ e :: (blanks ++ (items.map (DocItem.line indent) ++ (after ++ outro))))
    (hintro : ∀ l ∈ intro, Prose (trimSpace l)) (he : StartsBlock (trimSpace e))
    (hblanks : blanks ≠ [] ∧ ∀ l ∈ blanks, Vacant l) (hafter : ∀ l ∈ after, Vacant l) (hend : after ≠ [] ∨ outro = [])
    (houtro : ∀ l ∈ outro, ¬ HasIndicator (trimSpace l)) (hind : IsBlank indent)
    (hitems : ∀ it ∈ items, it.Ok) (hne : items ≠ [])
    (hparam : (paramsOf items = [] ∧ param = []) ∨ paramsOf items = [param]) :
    ∃ r, findErrorDocs (some (given g)) = .ok r ∧ r.codes.Nodup ∧
      (∀ c, c ∈ r.codes ↔ ∃ pad cm, DocItem.code c pad cm ∈ items) ∧ r.param = param ∧ r.none = false := by
  have hev : ¬ Vacant e := not_vacant (by rw [he]; decide)
  have hiv : ∀ l ∈ items.map (DocItem.line indent), ¬ Vacant l := by
    intro l hl
    obtain ⟨it, hit, rfl⟩ := List.mem_map.1 hl
    exact not_vacant (ErrorDocs.item_blockLine hind it (hitems it hit)).1
  have hd0 : ∃ intro', (linesOf g).dropWhile (fun l => decide (Vacant l)) =
      intro' ++ e :: (blanks ++ (items.map (DocItem.line indent) ++ (after ++ outro))) ∧ ∀ l ∈ intro', l ∈ intro := by
    rw [hg]
    clear hg hintro
    induction intro with
    | nil => exact ⟨[], by rw [List.nil_append, List.dropWhile_cons_of_neg (by simpa using hev)], by simp⟩
    | cons y ys ih =>
      by_cases hy : Vacant y
      · obtain ⟨i', e1, e2⟩ := ih
        exact ⟨i', by rw [List.cons_append, List.dropWhile_cons_of_pos (by simpa using hy)]; exact e1,
          fun l hl => List.mem_cons_of_mem _ (e2 l hl)⟩
      · exact ⟨y :: ys, by rw [List.cons_append, List.dropWhile_cons_of_neg (by simpa using hy)], fun l hl => hl⟩
  obtain ⟨intro', e1, hsub⟩ := hd0
  have htail : ∃ tail, single (after ++ outro) = tail ∧ AfterBlock (tail.map trimSpace) := by
    refine ⟨_, rfl, ?_⟩
    cases after with
    | nil =>
      rcases hend with c | rfl
      · exact absurd rfl c
      · exact .inl rfl
    | cons a after =>
      obtain ⟨x, rest, e2, hx, hr⟩ := single_vacant a (after ++ outro) (hafter a (by simp))
      rw [List.cons_append, e2]
      refine .inr ⟨rest.map trimSpace, by rw [List.map_cons, trimSpace_empty hx], ?_⟩
      intro l hl
      obtain ⟨y, hy, rfl⟩ := List.mem_map.1 hl
      rcases List.mem_append.1 (hr y hy) with h | h
      · rw [trimSpace_empty (hafter y (by simp [h]))]; rintro ⟨t, ht⟩; simp at ht
      · exact houtro y h
  obtain ⟨tail, e2, hta⟩ := htail
  have hr : ∃ x, Vacant x ∧ collapse (linesOf g) =
      single intro' ++ e :: (x :: (items.map (DocItem.line indent) ++ tail)) := by
    obtain ⟨x, e3, hx⟩ := single_vacants blanks (items.map (DocItem.line indent) ++ (after ++ outro)) hblanks.1 hblanks.2 (by
      intro l hl
      cases items with
      | nil => exact absurd rfl hne
      | cons it its =>
        simp at hl
        subst hl
        exact hiv _ (by simp))
    refine ⟨x, hx, ?_⟩
    unfold collapse
    rw [e1, single_append_nonempty _ _ _ hev, e3, single_nonempty _ _ hiv, e2]
  obtain ⟨x, hx, hr⟩ := hr
  have hread : reading g = (single intro').map trimSpace ++ trimSpace e :: [] ::
      ((items.map fun it => trimSpace (it.line indent)) ++ tail.map trimSpace) := by
    unfold reading
    rw [hr]
    simp [trimSpace_empty hx, Function.comp_def]
  have hd : Declares (reading g)
      (fun c => ∃ l ∈ items.map fun it => trimSpace (it.line indent), EntryCode l c) param false := by
    rw [hread]
    refine .block ?_ he ?_ (ErrorDocs.items_blockParam hind items hitems param hparam) hta
    · intro l hl
      obtain ⟨y, hy, rfl⟩ := List.mem_map.1 hl
      exact hintro y (hsub y (single_subset _ y hy))
    · intro l hl
      obtain ⟨it, hit, rfl⟩ := List.mem_map.1 hl
      exact ErrorDocs.item_blockLine hind it (hitems it hit)
  obtain ⟨r, hr, hc, hp, hn⟩ := (source_grammar g h _ _ _).2 hd
  refine ⟨r, hr, runDocs_nodup hr, ?_, hp, hn⟩
  intro c
  rw [hc]
  constructor
  · rintro ⟨l, h, he⟩
    obtain ⟨x, hx, rfl⟩ := List.mem_map.1 h
    obtain ⟨pad, cm, rfl⟩ := (ErrorDocs.item_code_iff hind x (hitems x hx) c).1 he
    exact ⟨pad, cm, hx⟩
  · rintro ⟨pad, cm, hx⟩
    exact ⟨_, List.mem_map_of_mem hx, (ErrorDocs.item_code_iff hind _ (hitems _ hx) c).2 ⟨pad, cm, rfl⟩⟩

theorem directive_example : Directive b!"go:noinline" := .inr ⟨b!"go", 110, b!"oinline", by decide, by
  intro x hx
  simp only [List.mem_cons, List.not_mem_nil, or_false] at hx
  rcases hx with rfl | rfl <;> exact .inl (by decide), .inl (by decide), rfl⟩

/-- A doc comment in mixed style, with a directive, several blank lines, one of them with trailing white space. -/
def exampleGroup : List Comment :=
  [.line b!" F does things.", .line b!"", .line b!"Errors:", .line b!"", .line b!" \t", .line b!"- a-error -- first",
    .line b!"go:noinline", .block b!"  - b-error   -- second\n  - param: code --", .line b!"", .line b!"", .line b!" More."]

theorem exampleGroup_lines : linesOf exampleGroup = [b!" F does things.", [], b!"Errors:", [], b!" \t", b!"- a-error -- first",
    b!"  - b-error   -- second", b!"  - param: code --", [], [], b!" More."] := by
  have nd : ∀ t ∈ [b!" F does things.", b!"", b!"Errors:", b!" \t", b!"- a-error -- first", b!" More."], ¬ Directive t := by
    have : ∀ t ∈ [b!" F does things.", b!"", b!"Errors:", b!" \t", b!"- a-error -- first", b!" More."], isDirective t = false := by decide
    intro t ht hd
    rw [← isDirective_iff, this t ht] at hd
    cases hd
  simp only [List.mem_cons, List.not_mem_nil, or_false, forall_eq_or_imp, forall_eq] at nd
  obtain ⟨n1, n2, n3, n4, n5, n6⟩ := nd
  simp only [linesOf, exampleGroup, List.flatMap_cons, List.flatMap_nil, Comment.lines, n1, n2, n3, n4, n5, n6, directive_example,
    if_true, if_false]
  rfl

/-- Non-vacuity: the example is read as expected. -/
example : findErrorDocs (some (given exampleGroup)) = .ok ⟨[b!"a-error", b!"b-error"], b!"code", false⟩ := by decide +kernel

/-- Non-vacuity of `source_round_trip`: its hypotheses hold for a group in `//` style with two blank lines after the indicator. -/
example : ∃ r, findErrorDocs (some (given ([b!"F.", b!"Errors:", [], [], b!"  - a-error -- x", b!"  - b-error -- y"].map fun l => .line (32 :: l)))) = .ok r ∧
    r.codes.Nodup ∧ (∀ c, c ∈ r.codes ↔ ∃ pad cm, DocItem.code c pad cm ∈ [.code b!"a-error" 0 b!" x", .code b!"b-error" 0 b!" y"]) ∧
    r.param = [] ∧ r.none = false := by
  have wf : ∀ c ∈ [b!"a-error", b!"b-error"], WellFormed c := by
    intro c hc
    exact (isErrorCodeValid_iff_wellFormed c).1 (by revert c; decide)
  refine source_round_trip _ ?_ [b!" F."] [[32], [32]] [] [] b!" Errors:" b!"   " [.code b!"a-error" 0 b!" x", .code b!"b-error" 0 b!" y"] []
    ?_ ?_ ?_ ⟨by simp, ?_⟩ (by simp) (.inr rfl) (by simp) (trimSpace_nil_iff _ |>.1 (by decide)) ?_ (by simp) (.inl ⟨rfl, rfl⟩)
  · intro c hc
    obtain ⟨l, hl, rfl⟩ := List.mem_map.1 hc
    have : ∀ l ∈ [b!"F.", b!"Errors:", [], [], b!"  - a-error -- x", b!"  - b-error -- y"], (10 : UInt8) ∉ 32 :: l := by decide
    exact this l hl
  · simp [linesOf, Comment.lines, not_directive_space, DocItem.line, entryLine]
  · intro l hl
    simp only [List.mem_singleton] at hl
    subst hl
    refine ⟨by unfold StartsBlock; decide, ?_⟩
    rw [SaysNone, ← hasPrefix_iff]; decide
  · show trimSpace b!" Errors:" = _; decide
  · intro l hl
    simp at hl
    subst hl
    decide
  · intro it hit
    simp at hit
    rcases hit with rfl | rfl
    · exact ⟨wf _ (by simp), by decide⟩
    · exact ⟨wf _ (by simp), by decide⟩

/-! ## Layout -/

/-- A line of the text after `//` that begins like a declaration or an annotation. -/
def Marked (l : GoString) : Prop := b!"Errors:" <+: l ∨ b!"- " <+: l ∨ b!"Error Codes" <+: l

/-- **C51.** A line of a declaration or an annotation is never taken for a directive, with or without a space after `//`. -/
theorem marked_not_directive (t : GoString) (h : Marked (trimSpace t)) : ¬ Directive t := by
  have first : ∀ {t : GoString}, Directive t → ∃ b r, t = b :: r ∧ LowerAlnum b := by
    rintro t (⟨r, rfl | rfl | rfl⟩ | ⟨w, b, r, hw, hal, _, rfl⟩)
    · exact ⟨_, _, rfl, .inl (by decide)⟩
    · exact ⟨_, _, rfl, .inl (by decide)⟩
    · exact ⟨_, _, rfl, .inl (by decide)⟩
    · cases w with
      | nil => exact absurd rfl hw
      | cons x w => exact ⟨x, _, by simp; rfl, hal x (by simp)⟩
  intro hd
  obtain ⟨b, r, rfl, hb⟩ := first hd
  obtain ⟨v, w, hv, _, e⟩ := trimSpace_decomp (b :: r)
  have hv0 : v = [] := by
    cases hv with
    | nil => rfl
    | @cons x v hx _ =>
      exfalso
      have hh : ∀ x ∈ spaceEncs, ∃ y z, x = y :: z ∧ ¬ ((97 ≤ y ∧ y ≤ 122) ∨ (48 ≤ y ∧ y ≤ 57)) := by
        intro x hx
        have : ∀ x ∈ spaceEncs, x ≠ [] ∧ ∀ y ∈ x.head?, ¬ ((97 ≤ y ∧ y ≤ 122) ∨ (48 ≤ y ∧ y ≤ 57)) := by decide
        obtain ⟨h1, h2⟩ := this x hx
        cases x with
        | nil => exact absurd rfl h1
        | cons y z => exact ⟨y, z, rfl, h2 y rfl⟩
      obtain ⟨y, z, rfl, hy⟩ := hh _ hx
      simp at e
      rw [← e.1] at hy
      exact hy hb
  subst hv0
  have : ∀ (p : GoString) (x : UInt8), p.head? = some x → p <+: trimSpace (b :: r) → b = x := by
    rintro p x hp ⟨s, hs⟩
    rw [← hs] at e
    cases p with
    | nil => simp at hp
    | cons y p => simp at hp e; rw [e.1, hp]
  have hb' : b = 69 ∨ b = 45 := by
    rcases h with h | h | h
    · exact .inl (this _ _ rfl h)
    · exact .inr (this _ _ rfl h)
    · exact .inl (this _ _ rfl h)
  rcases hb' with rfl | rfl <;> simp only [LowerAlnum] at hb <;> revert hb <;> decide

/-- **C51.** A line comment counts as the one line it consists of, unless it is a directive. -/
theorem line_comment (t : GoString) : linesOf [.line t] = [t] ↔ ¬ Directive t := by
  simp [linesOf, Comment.lines]

/-- **C51.** Directives are not seen: with or without them a group has the same text. -/
theorem directive_unseen (g₁ g₂ : List Comment) (t : GoString) (hd : Directive t) :
    given (g₁ ++ .line t :: g₂) = given (g₁ ++ g₂) := by
  have : commentLines (Comment.line t).source = [] := by
    have hi := (isDirective_iff t).2 hd
    simp only [Comment.source, List.cons_append, List.nil_append, commentLines]
    split
    · exact absurd hi (by decide)
    · exact absurd hd (not_directive_space _)
    · rw [if_pos hi]
  unfold given CommentText.text
  simp [List.flatMap_append, this]

/-- Two lists of lines that differ in white space around the lines only. -/
def Alike (ls ls' : List GoString) : Prop :=
  ls.map (fun l => (trimSpace l, decide (Vacant l))) = ls'.map (fun l => (trimSpace l, decide (Vacant l)))

/-- **C51.** The style of comments, indentation and trailing white space do not matter. -/
theorem style_irrelevant (g g' : List Comment) (h : ∀ c ∈ g, c.Ok) (h' : ∀ c ∈ g', c.Ok) (e : Alike (linesOf g) (linesOf g')) :
    findErrorDocs (some (given g)) = findErrorDocs (some (given g')) := by
  refine same_reading h h' ?_
  unfold reading
  rw [collapse_sq, collapse_sq]
  exact congrArg _ e

/-- The three usual styles have the same lines: `// line` for each line, `//line` for each line (none of them a directive), and
one `/* … */` around all of them. -/
theorem styles_alike (ls : List GoString) (hne : ls ≠ []) (hn : ∀ l ∈ ls, (10 : UInt8) ∉ l) :
    Alike (linesOf (ls.map fun l => .line (32 :: l))) ls ∧
    ((∀ l ∈ ls, ¬ Directive l) → linesOf (ls.map .line) = ls) ∧
    linesOf [.block (docOf ls)] = ls := by
  refine ⟨?_, ?_, ?_⟩
  · clear hne hn
    induction ls with
    | nil => rfl
    | cons l ls ih =>
      unfold Alike at ih ⊢
      have : (linesOf ((l :: ls).map fun l => Comment.line (32 :: l))) =
          (32 :: l) :: linesOf (ls.map fun l => Comment.line (32 :: l)) := by
        simp [linesOf, Comment.lines, not_directive_space]
      rw [this, List.map_cons, List.map_cons, ih]
      exact congrArg (· :: _) (key_space l)
  · intro hd
    clear hne hn
    induction ls with
    | nil => rfl
    | cons l ls ih =>
      have : linesOf ((l :: ls).map Comment.line) = l :: linesOf (ls.map Comment.line) := by
        simp [linesOf, Comment.lines, hd l (by simp)]
      rw [this, ih fun l hl => hd l (by simp [hl])]
  · simp only [linesOf, List.flatMap_cons, List.flatMap_nil, List.append_nil, Comment.lines]
    exact split_join 10 ls hne hn

/-- **C51.** The number of consecutive blank lines does not matter, and neither do blank lines at the beginning. -/
theorem blank_lines_irrelevant (g g' : List Comment) (h : ∀ c ∈ g, c.Ok) (h' : ∀ c ∈ g', c.Ok) (a c : List GoString) (b b' : GoString)
    (hb : Vacant b) (hb' : Vacant b') :
    (linesOf g = a ++ b :: c → linesOf g' = a ++ b :: b' :: c →
      findErrorDocs (some (given g)) = findErrorDocs (some (given g'))) ∧
    (linesOf g = c → linesOf g' = b :: c → findErrorDocs (some (given g)) = findErrorDocs (some (given g'))) := by
  have step : ∀ (p : Bool) (ks : List (GoString × Bool)) (t : GoString), sq p ((t, true) :: ks) = sq p ((t, true) :: (t, true) :: ks) := by
    intro p ks t; cases p <;> simp [sq]
  have app : ∀ (p : Bool) (xs ys zs : List (GoString × Bool)), (∀ p, sq p ys = sq p zs) → sq p (xs ++ ys) = sq p (xs ++ zs) := by
    intro p xs ys zs hyz
    induction xs generalizing p with
    | nil => exact hyz p
    | cons x xs ih =>
      obtain ⟨t, e⟩ := x
      simp only [List.cons_append, sq]
      cases e <;> cases p <;> simp [ih]
  have kb : key b = ([], true) := by unfold key; rw [trimSpace_empty hb]; simp [hb]
  have kb' : key b' = ([], true) := by unfold key; rw [trimSpace_empty hb']; simp [hb']
  constructor
  · intro e e'
    refine same_reading h h' ?_
    unfold reading
    rw [collapse_sq, collapse_sq, e, e', List.map_append, List.map_append]
    refine app _ _ _ _ fun p => ?_
    rw [List.map_cons, List.map_cons, List.map_cons, kb, kb']
    exact step p _ _
  · intro e e'
    refine same_reading h h' ?_
    unfold reading
    rw [collapse_sq, collapse_sq, e, e', List.map_cons, kb]
    rfl

/-! ## Annotations -/

/-- What stands after the indicator on the annotation lines of the comments at a return statement. -/
noncomputable def annotationTexts (gs : List (List Comment)) : List GoString :=
  ((gs.flatMap linesOf).map trimSpace).filterMap fun l =>
    if b!"Error Codes".isPrefixOf l then some (trimSpace (l.drop b!"Error Codes".length)) else none

theorem split_join_flat (gs : List GoString) (hne : gs ≠ []) : split 10 (join [10] gs) = gs.flatMap (split 10) := by
  match gs with
  | [] => exact absurd rfl hne
  | [g] => simp [join]
  | g :: g' :: gs =>
    have ih := split_join_flat (g' :: gs) (by simp)
    have app : ∀ a b : GoString, split 10 (a ++ [10] ++ b) = split 10 a ++ split 10 b := by
      intro a b
      induction a with
      | nil => simp [split]
      | cons x a iha =>
        simp only [List.cons_append, split]
        rw [iha]
        split
        · rfl
        · cases hs : split 10 a with
          | nil => exact absurd hs (split_ne_nil 10 a)
          | cons p ps => rfl
    rw [join, app, ih]; rfl

theorem texts_of_lines (gs : List (List Comment)) (h : ∀ g ∈ gs, ∀ c ∈ g, c.Ok) (hne : gs ≠ []) :
    indicatorTexts (join [10] (gs.map given)) = annotationTexts gs := by
  unfold indicatorTexts annotationTexts
  rw [split_join_flat _ (by simpa using hne)]
  generalize hf : (fun l : GoString => if b!"Error Codes".isPrefixOf l then some (trimSpace (l.drop b!"Error Codes".length)) else none) = f
  have f0 : f [] = none := by rw [← hf]; decide
  have fsq : ∀ (ks : List (GoString × Bool)) (p : Bool), (∀ k ∈ ks, k.2 = true → k.1 = []) →
      (sq p ks).filterMap f = (ks.map Prod.fst).filterMap f := by
    intro ks
    induction ks with
    | nil => intro p _; rfl
    | cons k ks ih =>
      intro p hk
      obtain ⟨t, e⟩ := k
      have ih := fun p => ih p fun k h => hk k (by simp [h])
      cases e with
      | false => simp [sq, List.filterMap_cons, ih]
      | true =>
        have := hk (t, true) (by simp) rfl
        simp only at this
        subst this
        cases p <;> simp [sq, f0, ih]
  have one : ∀ g : List Comment, (∀ c ∈ g, c.Ok) →
      ((split 10 (given g)).map trimSpace).filterMap f = ((linesOf g).map trimSpace).filterMap f := by
    intro g hg
    have hr : (reading g).filterMap f = ((linesOf g).map trimSpace).filterMap f := by
      unfold reading
      rw [collapse_sq, fsq]
      · rw [List.map_map]; rfl
      · intro k hk he
        obtain ⟨l, _, rfl⟩ := List.mem_map.1 hk
        simp only [key, decide_eq_true_eq] at he
        exact trimSpace_empty he
    have hl := lines_text g hg
    unfold lines at hl
    rcases hl with e | e
    · rw [given, e, hr]
    · rw [given, e, List.filterMap_append, hr]
      simp [f0]
  clear hne
  induction gs with
  | nil => rfl
  | cons g gs ih =>
    simp only [List.map_cons, List.flatMap_cons, List.map_append, List.filterMap_append]
    rw [one g (h g (by simp)), ih fun g hg => h g (by simp [hg])]

/-- **C51.** A return statement is annotated silently iff exactly one line of the comments attached to it — whatever their style —
begins with the indicator, and the rest of that line is well-formed; the annotation then says what that line says. -/
theorem source_annotation (gs : List (List Comment)) (h : ∀ g ∈ gs, ∀ c ∈ g, c.Ok) (hne : gs ≠ []) (m : Meaning) :
    (∃ a, getReturnStmtAnnotations (gs.map given) = (some a, []) ∧ a.meaning = m) ↔
      ∃ t, annotationTexts gs = [t] ∧ Says t m := by
  rw [Annotations.accepted_iff _ (by simpa using hne)]
  unfold Annotations.commentText
  rw [texts_of_lines gs h hne]

/-- **C51.** Without such a line a return statement has no annotation and nothing is reported. -/
theorem source_no_annotation (gs : List (List Comment)) (h : ∀ g ∈ gs, ∀ c ∈ g, c.Ok) (hn : annotationTexts gs = []) :
    getReturnStmtAnnotations (gs.map given) = (none, []) := by
  by_cases hne : gs = []
  · subst hne; rfl
  · refine Annotations.no_indicator _ (.inr ?_)
    unfold Annotations.commentText
    rw [texts_of_lines gs h hne, hn]

/-- Non-vacuity: `//Error Codes -= a-1` under a directive and before a block comment. -/
example : ∃ a, getReturnStmtAnnotations ([[.line b!"nolint:all", .line b!"Error Codes -= a-1"], [.block b!" really\n "]].map given) =
    (some a, []) ∧ a.subCodes = [b!"a-1"] := ⟨⟨false, [], [], [b!"a-1"]⟩, by decide +kernel, rfl⟩

/-! ## The comments of several files -/

/-- **C51.** If no node occurs twice — files share no nodes —, the comments of a node are those its file has for it, in whatever
order the files and the entries of their maps are visited. -/
theorem comment_map {α} (files : List (List (Nat × α))) (nodup : (files.flatten.map Prod.fst).Nodup) (n : Nat) (c : α) :
    createCommentMap files n = some c ↔ ∃ file ∈ files, (n, c) ∈ file := by
  have flat : ∀ (m : Nat → Option α) (files : List (List (Nat × α))),
      files.foldl (fun m file => file.foldl (fun m e => CommentMap.insert m e.1 e.2) m) m =
        files.flatten.foldl (fun m e => CommentMap.insert m e.1 e.2) m := by
    intro m files
    induction files generalizing m with
    | nil => rfl
    | cons f fs ih => simp [ih, List.foldl_append]
  have key : ∀ (es : List (Nat × α)) (m : Nat → Option α), (es.map Prod.fst).Nodup →
      (es.foldl (fun m e => CommentMap.insert m e.1 e.2) m n = some c ↔
        (n, c) ∈ es ∨ (m n = some c ∧ ∀ e ∈ es, e.1 ≠ n)) := by
    intro es
    induction es with
    | nil => intro m _; simp
    | cons e es ih =>
      intro m hnd
      rw [List.map_cons, List.nodup_cons] at hnd
      rw [List.foldl_cons, ih _ hnd.2]
      obtain ⟨k, v⟩ := e
      unfold CommentMap.insert
      by_cases hk : n = k
      · subst hk
        have hno : ∀ e ∈ es, e.1 ≠ n := by
          intro e he c
          have := List.mem_map_of_mem (f := Prod.fst) he
          rw [c] at this
          exact hnd.1 this
        have : (n, c) ∉ es := fun h => hno _ h rfl
        simp only [if_pos, List.mem_cons, this, Option.some.injEq]
        constructor
        · rintro (h | h)
          · exact absurd h id
          · exact .inl (.inl (by simp [h.1]))
        · rintro ((h | h) | h)
          · simp at h; exact .inr ⟨h.symm, hno⟩
          · exact absurd h id
          · exact absurd rfl (h.2 (n, v) (.inl rfl))
      · simp only [if_neg hk, List.mem_cons]
        constructor
        · rintro (h | h)
          · exact .inl (.inr h)
          · refine .inr ⟨h.1, ?_⟩
            rintro e (rfl | he)
            · exact fun c => hk c.symm
            · exact h.2 e he
        · rintro ((h | h) | h)
          · simp at h; exact absurd h.1 hk
          · exact .inl h
          · exact .inr ⟨h.1, fun e he => h.2 e (.inr he)⟩
  unfold createCommentMap
  rw [flat, key _ _ nodup]
  simp [List.mem_flatten]

section
open CommentText

/-! ## The shape of a comment's text -/

/-- Without line ends, and without white space at the end. -/
def Clean (l : GoString) : Prop := (10 : UInt8) ∉ l ∧ ∀ b ∈ l.getLast?, b ≠ 32 ∧ b ≠ 9 ∧ b ≠ 10 ∧ b ≠ 13

/-- Lines with text, or single empty lines between such. -/
structure Shape (ls : List GoString) : Prop where
  clean : ∀ l ∈ ls, Clean l
  first : ls.head? ≠ some []
  last : ls.getLast? ≠ some []
  single : ∀ i, ls[i]? = some [] → ls[i + 1]? ≠ some []

theorem clean_strip {s : GoString} (h : (10 : UInt8) ∉ s) : Clean (stripTrailing s) := by
  have hd : ∀ (t : GoString), (∀ b ∈ t.dropWhile isWhitespace, b ∈ t) ∧ ∀ b ∈ (t.dropWhile isWhitespace).head?, isWhitespace b = false := by
    intro t
    refine ⟨fun b hb => (List.dropWhile_sublist _).subset hb, fun b hb => ?_⟩
    have := List.head?_dropWhile_not isWhitespace t
    cases hx : (t.dropWhile isWhitespace).head? with
    | none => rw [hx] at hb; cases hb
    | some c => 
      rw [hx] at hb this; cases hb
      simpa using this
  obtain ⟨h1, h2⟩ := hd s.reverse
  refine ⟨fun hm => h (by simpa using h1 10 (by simpa [stripTrailing] using hm)), fun b hb => ?_⟩
  rw [stripTrailing, List.getLast?_reverse] at hb
  have := h2 b hb
  simp only [isWhitespace, Bool.or_eq_false_iff, beq_eq_false_iff_ne] at this
  exact ⟨this.1.1.1, this.1.1.2, this.1.2, this.2⟩

theorem clean_commentLines (c : GoString) : ∀ l ∈ commentLines c, Clean l := by
  have hs : ∀ t : GoString, ∀ l ∈ (split 10 t).map stripTrailing, Clean l := by
    intro t l hl
    obtain ⟨x, hx, rfl⟩ := List.mem_map.1 hl
    exact clean_strip (split_piece_no_sep 10 t x hx)
  intro l hl
  unfold commentLines at hl
  split at hl
  · split at hl
    · exact hs _ l hl
    · exact hs _ l hl
    · split at hl
      · cases hl
      · exact hs _ l hl
  · exact hs _ l hl
  · exact hs _ l hl

theorem compactLoop_shape {kept ls : List GoString} (h : ∀ l ∈ ls, Clean l) (h1 : ∀ l ∈ kept, Clean l) (h2 : kept.head? ≠ some [])
    (h3 : ∀ i, kept[i]? = some [] → kept[i + 1]? ≠ some []) :
    (∀ l ∈ compactLoop kept ls, Clean l) ∧ (compactLoop kept ls).head? ≠ some [] ∧
      ∀ i, (compactLoop kept ls)[i]? = some [] → (compactLoop kept ls)[i + 1]? ≠ some [] := by
  induction ls generalizing kept with
  | nil => exact ⟨h1, h2, h3⟩
  | cons l ls ih =>
    simp only [List.mem_cons, forall_eq_or_imp] at h
    unfold compactLoop
    split
    · rename_i hc
      refine ih h.2 ?_ ?_ ?_
      · intro x hx
        simp only [List.mem_append, List.mem_cons, List.not_mem_nil, or_false] at hx
        rcases hx with hx | rfl
        · exact h1 x hx
        · exact h.1
      · cases kept with
        | nil => simpa using hc
        | cons k ks => simpa using h2
      · intro i hi hj
        have hlt : i + 1 < kept.length + 1 := by
          have := List.getElem?_eq_some_iff.1 hj
          simpa using this.1
        by_cases hi1 : i + 1 < kept.length
        · rw [List.getElem?_append_left (by omega)] at hi hj
          exact h3 i hi hj
        · have he : i + 1 = kept.length := by omega
          rw [List.getElem?_append_left (by omega)] at hi
          rw [List.getElem?_append_right (by omega), he] at hj
          simp only [Nat.sub_self, List.getElem?_cons_zero, Option.some.injEq] at hj
          rcases hc with hc | ⟨-, hc⟩
          · exact hc hj
          · rw [List.getLast?_eq_getElem?] at hc
            exact hc (by rw [← hi]; congr 1; omega)
    · exact ih h.2 h1 h2 h3

theorem join_terminated (ls : List GoString) : join [10] (ls ++ [[]]) = ls.flatMap (· ++ [10]) := by
  induction ls with
  | nil => rfl
  | cons l ls ih =>
    cases ls with
    | nil => simp [join]
    | cons m ls => 
      simp only [List.cons_append, join] at ih ⊢
      rw [ih]; simp

/-- **C51.** The text of a comment group consists of lines that end with a line feed and have no other white space before it, does not begin or
end with an empty line, and has no two empty lines in a row. -/
theorem text_shape (group : List GoString) : ∃ ls, Shape ls ∧ text group = ls.flatMap (· ++ [10]) := by
  obtain ⟨h1, h2, h3⟩ := compactLoop_shape (kept := []) (ls := group.flatMap commentLines)
    (fun l hl => by obtain ⟨c, -, hc⟩ := List.mem_flatMap.1 hl; exact clean_commentLines c l hc) (by simp) (by simp) (by simp)
  unfold text
  generalize compactLoop [] (group.flatMap commentLines) = kept at h1 h2 h3
  by_cases hk : kept = []
  · subst hk
    exact ⟨[], ⟨by simp, by simp, by simp, by simp⟩, by simp [join]⟩
  by_cases hl : kept.getLast? = some []
  · have hk' : kept = kept.dropLast ++ [[]] := by
      have h5 := List.dropLast_concat_getLast hk
      rw [List.getLast?_eq_some_getLast hk] at hl
      rw [Option.some.inj hl] at h5
      exact h5.symm
    refine ⟨kept.dropLast, ⟨fun l hl => h1 l (List.dropLast_subset _ hl), ?_, ?_, ?_⟩, ?_⟩
    · intro hh
      apply h2
      rw [hk']
      cases hd : kept.dropLast with
      | nil => rw [hd] at hh; cases hh
      | cons a b => rw [hd] at hh; simpa using hh
    · intro hh
      rw [List.getLast?_eq_getElem?] at hh hl
      have hlt := (List.getElem?_eq_some_iff.1 hh).1
      rw [List.length_dropLast] at hlt hh
      rw [List.getElem?_dropLast, if_pos (by omega)] at hh
      exact h3 _ hh (by rw [← hl]; congr 1; omega)
    · intro i hi hj
      have hlt := (List.getElem?_eq_some_iff.1 hj).1
      rw [List.length_dropLast] at hlt
      rw [List.getElem?_dropLast, if_pos (by omega)] at hi hj
      exact h3 i hi hj
    · show join [10] (if kept.length > 0 ∧ kept.getLast? ≠ some [] then kept ++ [[]] else kept) = _
      rw [if_neg (by simp [hl])]
      rw (occs := [1]) [hk']
      exact join_terminated _
  · refine ⟨kept, ⟨h1, h2, hl, h3⟩, ?_⟩
    show join [10] (if kept.length > 0 ∧ kept.getLast? ≠ some [] then kept ++ [[]] else kept) = _
    rw [if_pos ⟨List.length_pos_iff.2 hk, hl⟩]
    exact join_terminated _

example : text [b!"//", b!"// F does things. ", b!"/*", b!"", b!" */", b!"//  end"] = b!"F does things.\n\n end\n" := by decide +kernel

end

end Serum.Props.Comments
