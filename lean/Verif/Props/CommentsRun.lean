import Verif.Props.Comments
import Verif.Props.RunExample

/-!
# C51 — from the comments of the source to the exported facts
-/

namespace Serum.Props.Comments
open Serum Serum.GoStr Serum.CodeFormat Serum.DocGrammar Serum.CommentSpec Serum.CommentText RunSpec
open Serum.Props.ErrorDocs (DocItem paramsOf)

variable {P : Package} {S : Schedule} {strict : Bool} {out : Outcome}

/-- The lines of the comment group declare the codes written in `items`. -/
structure Written (g : List Comment) (items : List DocItem) (param : GoString) : Prop where
  ok : ∀ c ∈ g, c.Ok
  lines : ∃ intro blanks after outro e indent,
    linesOf g = intro ++ e :: (blanks ++ (items.map (DocItem.line indent) ++ (after ++ outro))) ∧
    (∀ l ∈ intro, Prose (trimSpace l)) ∧ StartsBlock (trimSpace e) ∧ (blanks ≠ [] ∧ ∀ l ∈ blanks, Vacant l) ∧
    (∀ l ∈ after, Vacant l) ∧ (after ≠ [] ∨ outro = []) ∧ (∀ l ∈ outro, ¬ HasIndicator (trimSpace l)) ∧ IsBlank indent
  itemsOk : ∀ it ∈ items, it.Ok
  hasItems : items ≠ []
  oneParam : (paramsOf items = [] ∧ param = []) ∨ paramsOf items = [param]

theorem Written.read {g : List Comment} {items : List DocItem} {param : GoString} (h : Written g items param) :
    ∃ r, findErrorDocs (some (given g)) = .ok r ∧ r.codes.Nodup ∧
      (∀ c, c ∈ r.codes ↔ ∃ pad cm, DocItem.code c pad cm ∈ items) ∧ r.param = param ∧ r.none = false := by
  obtain ⟨i, b, a, o, e, ind, h1, h2, h3, h4, h5, h6, h7, h8⟩ := h.lines
  exact source_round_trip g h.ok i b a o e ind items param h1 h2 h3 h4 h5 h6 h7 h8 h.itemsOk h.hasItems h.oneParam

/-- **C51**, for a run: the codes recorded for a function that returns an error are exactly the codes written in its doc comment, however
the comment is laid out. -/
theorem exported_as_written (h : runVerify P S strict = .ok out) (hS : S.Fair) (ho : Objects P) (hp : Interfaces.Program P.ifaces)
    {f : FnId} (hf : f ∈ P.funcs) (hk : Kept P f) (hr : ReturnsError P f) {g : List Comment} (hd : P.decls.doc f = some (given g))
    {items : List DocItem} (hw : Written g items []) (hcode : ∃ c pad cm, DocItem.code c pad cm ∈ items) :
    ∃ C, out.facts.codes (P.env.funcObj f) = some C ∧ C.Nodup ∧ ∀ c, c ∈ C ↔ ∃ pad cm, DocItem.code c pad cm ∈ items := by
  obtain ⟨r, e, hn, hc, hp', hno⟩ := hw.read
  obtain ⟨c0, pad, cm, h0⟩ := hcode
  have hne : r.codes ≠ [] := by
    intro e0
    have := (hc c0).2 ⟨pad, cm, h0⟩
    rw [e0] at this; simp at this
  refine ⟨r.codes, ((Run.exported_codes h hS ho hp).1 f hf r.codes).2 ⟨⟨r.codes, none⟩, ⟨hk, hr, r, ?_, rfl, .inl ⟨hp', rfl, .inl hne⟩⟩, rfl⟩,
    hn, hc⟩
  rw [hd]; exact e

/-- **C51**, for a run: a function whose doc comment has an item `- param: name` is recorded as error constructor, with the position of
the string parameter of that name, and with the codes written beside it. -/
theorem constructor_as_written (h : runVerify P S strict = .ok out) (hS : S.Fair) (ho : Objects P) (hp : Interfaces.Program P.ifaces)
    {f : FnId} (hf : f ∈ P.funcs) (hk : Kept P f) (hr : ReturnsError P f) {g : List Comment} (hd : P.decls.doc f = some (given g))
    {items : List DocItem} {param : GoString} (hne : param ≠ []) (hw : Written g items param) {pre post : List Ident} {i : Ident}
    (hparams : paramNames (P.env.func f).type.params = pre ++ i :: post) (hname : i.name = param) (first : ∀ j ∈ pre, j.name ≠ param)
    (hstring : P.env.typeOf i.id = .string) :
    out.facts.ctor (P.env.funcObj f) = some pre.length ∧
    ∃ C, out.facts.codes (P.env.funcObj f) = some C ∧ C.Nodup ∧ ∀ c, c ∈ C ↔ ∃ pad cm, DocItem.code c pad cm ∈ items := by
  obtain ⟨r, e, hn, hc, hp', hno⟩ := hw.read
  have hcomp : Compared P f ⟨r.codes, some ⟨i, pre.length⟩⟩ := by
    refine ⟨hk, hr, r, by rw [hd]; exact e, rfl, .inr ⟨by rw [hp']; exact hne, pre, i, post, hparams, by rw [hp']; exact hname, ?_, hstring, rfl⟩⟩
    rw [hp']; exact first
  exact ⟨((Run.exported_constructors h hS ho).1 f hf _).2 ⟨_, _, hcomp, rfl, rfl⟩, r.codes,
    ((Run.exported_codes h hS ho hp).1 f hf r.codes).2 ⟨_, hcomp, rfl⟩, hn, hc⟩

/-- **C51**, for a run: the codes recorded for an interface method are exactly those written in its doc comment. -/
theorem interface_as_written (h : runVerify P S strict = .ok out) (hS : S.Fair) (ho : Objects P) (hp : Interfaces.Program P.ifaces)
    {d : IfaceDecl} (hdi : d ∈ P.ifaces) {im : IfaceMethod} (him : .method im ∈ d.elements) {init : List Field} {last : Field}
    (hres : im.type.results = some (init ++ [last])) (herr : P.env.implError (P.env.typeOf last.typ) = true)
    {g : List Comment} (hd : im.doc = some (given g)) {items : List DocItem} (hw : Written g items [])
    (hcode : ∃ c pad cm, DocItem.code c pad cm ∈ items) :
    ∃ C, out.facts.codes (P.methodObj im.ident.id) = some C ∧ C.Nodup ∧ ∀ c, c ∈ C ↔ ∃ pad cm, DocItem.code c pad cm ∈ items := by
  obtain ⟨r, e, hn, hc, hp', hno⟩ := hw.read
  obtain ⟨c0, pad, cm, h0⟩ := hcode
  have hne : r.codes ≠ [] := by
    intro e0
    have := (hc c0).2 ⟨pad, cm, h0⟩
    rw [e0] at this; simp at this
  exact ⟨r.codes, ((Run.exported_codes h hS ho hp).2.1 d hdi im him r.codes).2
    ⟨r, init, last, hres, herr, by rw [hd]; exact e, hp', .inl hne, rfl⟩, hn, hc⟩

/-- **C51**, for a run, the converse: if the doc comment of a function has no line beginning with `Errors:`, no codes are recorded for it. -/
theorem nothing_as_written (h : runVerify P S strict = .ok out) (hS : S.Fair) (ho : Objects P) (hp : Interfaces.Program P.ifaces)
    {f : FnId} (hf : f ∈ P.funcs) {g : List Comment} (hg : ∀ c ∈ g, c.Ok) (hd : P.decls.doc f = some (given g))
    (hn : ∀ l ∈ linesOf g, ¬ HasIndicator (trimSpace l)) : out.facts.codes (P.env.funcObj f) = none := by
  have hdec : Declares (reading g) (fun _ => False) [] false := by
    refine .nothing ?_
    intro l hl
    unfold reading at hl
    obtain ⟨x, hx, rfl⟩ := List.mem_map.1 hl
    have := hn x (collapse_subset _ x hx)
    refine ⟨fun c => this ⟨[], by rw [c]; rfl⟩, ?_⟩
    rintro ⟨s, hs⟩
    exact this ⟨b!" none" ++ s, by rw [← hs]; rfl⟩
  obtain ⟨r, hr, hc, hp', hno⟩ := (source_grammar g hg _ _ _).2 hdec
  have hnil : r.codes = [] := List.eq_nil_iff_forall_not_mem.2 fun c hm => (hc c).1 hm
  cases hx : out.facts.codes (P.env.funcObj f) with
  | none => rfl
  | some C =>
    exfalso
    obtain ⟨c, ⟨-, -, r', hr', -, hcase⟩, -⟩ := ((Run.exported_codes h hS ho hp).1 f hf C).1 hx
    rw [hd, hr, Except.ok.injEq] at hr'
    subst hr'
    rcases hcase with ⟨-, -, h1 | h1⟩ | ⟨h1, -⟩
    · exact h1 hnil
    · rw [hno] at h1; cases h1
    · exact h1 hp'

/-- The doc comment of `F` in the example package, as it stands in the source. -/
def groupF : List Comment :=
  [.line b!" Errors:", .line b!"", .line b!"   - a-error -- sometimes", .line b!"   - b-error -- sometimes",
    .line b!"   - c-error -- sometimes"]

theorem groupF_doc : Run.pkg.decls.doc 0 = some (given groupF) := by decide +kernel

def itemsF : List DocItem := [.code b!"a-error" 0 b!" sometimes", .code b!"b-error" 0 b!" sometimes", .code b!"c-error" 0 b!" sometimes"]

theorem groupF_written : Written groupF itemsF [] where
  ok := by
    intro c hc
    simp only [groupF, List.mem_cons, List.not_mem_nil, or_false] at hc
    rcases hc with rfl | rfl | rfl | rfl | rfl <;> (simp only [Comment.Ok]; decide)
  lines := by
    refine ⟨[], [[]], [], [], b!" Errors:", b!"   ", ?_, by simp, by unfold StartsBlock; decide, ⟨by simp, ?_⟩, by simp, .inr rfl, by simp,
      (trimSpace_nil_iff _).1 (by decide)⟩
    · have : ¬ Directive [] := fun h => by have := (isDirective_iff _).2 h; revert this; decide
      simp [linesOf, groupF, Comment.lines, not_directive_space, this, itemsF, DocItem.line, entryLine]
    · intro l hl
      rw [List.mem_singleton] at hl
      subst hl
      decide
  itemsOk := by
    have wf : ∀ c ∈ [b!"a-error", b!"b-error", b!"c-error"], isErrorCodeValid c = true := by decide
    intro it hit
    simp only [itemsF, List.mem_cons, List.not_mem_nil, or_false] at hit
    rcases hit with rfl | rfl | rfl <;>
      exact ⟨(isErrorCodeValid_iff_wellFormed _).1 (wf _ (by simp)), by decide⟩
  hasItems := by simp [itemsF]
  oneParam := .inl ⟨rfl, rfl⟩

/-- Non-vacuity: `F` of the example package, from its comment in the source to the fact exported about it. -/
example : ∃ C, Run.pkgOut.facts.codes 70 = some C ∧ C.Nodup ∧ ∀ c, c ∈ C ↔ ∃ pad cm, DocItem.code c pad cm ∈ itemsF :=
  exported_as_written (f := 0) Run.pkg_ran Run.schedule_fair Run.pkg_objects Run.pkg_program (by decide) Run.pkg_F_compared.1
    Run.pkg_F_compared.2.1 groupF_doc groupF_written ⟨_, _, _, List.mem_cons_self ..⟩

/-- The doc comment of `New`, in block style, with the directive that may follow a doc comment. -/
def groupNew : List Comment := [.block b!"Errors:\n\n  - param: code -- the given one", .line b!"go:noinline"]

theorem groupNew_written : Written groupNew [.param b!"code" 0 b!" the given one"] b!"code" where
  ok := by
    intro c hc
    simp only [groupNew, List.mem_cons, List.not_mem_nil, or_false] at hc
    rcases hc with rfl | rfl <;> simp only [Comment.Ok]
    decide
  lines := by
    refine ⟨[], [[]], [], [], b!"Errors:", b!"  ", ?_, by simp, by unfold StartsBlock; decide, ⟨by simp, ?_⟩, by simp, .inr rfl, by simp,
      (trimSpace_nil_iff _).1 (by decide)⟩
    · simp [linesOf, groupNew, Comment.lines, directive_example, DocItem.line, entryLine, split]
    · intro l hl
      rw [List.mem_singleton] at hl
      subst hl
      decide
  itemsOk := by
    intro it hit
    rw [List.mem_singleton] at hit
    subst hit
    exact ⟨⟨by decide, trimmed_of_ends (by decide) (by decide), by decide, by decide, by decide⟩, by decide⟩
  hasItems := by simp
  oneParam := .inr rfl

/-- Non-vacuity: `New` of the example package. -/
example : Run.pkgOut.facts.ctor 71 = some 0 := by
  have hc : ∃ c, Compared Run.pkg 1 c := by
    obtain ⟨c, p, h, -, -⟩ := ((Run.exported_constructors Run.pkg_ran Run.schedule_fair Run.pkg_objects).1 1 (by decide) 0).1 (by rfl)
    exact ⟨c, h⟩
  obtain ⟨c, h1, h2, -⟩ := hc
  exact (constructor_as_written (f := 1) Run.pkg_ran Run.schedule_fair Run.pkg_objects Run.pkg_program (by decide) h1 h2
    (g := groupNew) (by decide +kernel) (by decide) groupNew_written (pre := []) (i := ⟨104, b!"code", some 1⟩) (post := []) rfl rfl (by simp)
    rfl).1

/-- The doc comment of the method `Get` of the interface. -/
def groupGet : List Comment := [.line b!"Errors:", .line b!"", .line b!" ", .line b!"   - a-error -- always"]

theorem groupGet_written : Written groupGet [.code b!"a-error" 0 b!" always"] [] where
  ok := by
    intro c hc
    simp only [groupGet, List.mem_cons, List.not_mem_nil, or_false] at hc
    rcases hc with rfl | rfl | rfl | rfl <;> (simp only [Comment.Ok]; decide)
  lines := by
    refine ⟨[], [[], b!" "], [], [], b!"Errors:", b!"   ", ?_, by simp, by unfold StartsBlock; decide, ⟨by simp, ?_⟩, by simp, .inr rfl, by simp,
      (trimSpace_nil_iff _).1 (by decide)⟩
    · have nd : ∀ t ∈ [b!"Errors:", []], isDirective t = false := by decide
      have nd : ∀ t ∈ [b!"Errors:", []], ¬ Directive t := fun t ht hd => by
        rw [← isDirective_iff, nd t ht] at hd; cases hd
      simp only [List.mem_cons, List.not_mem_nil, or_false, forall_eq_or_imp, forall_eq] at nd
      simp [linesOf, groupGet, Comment.lines, not_directive_space, nd, DocItem.line, entryLine]
    · intro l hl
      simp only [List.mem_cons, List.not_mem_nil, or_false] at hl
      rcases hl with rfl | rfl <;> decide
  itemsOk := by
    intro it hit
    rw [List.mem_singleton] at hit
    subst hit
    exact ⟨(isErrorCodeValid_iff_wellFormed _).1 (by decide), by decide⟩
  hasItems := by simp
  oneParam := .inl ⟨rfl, rfl⟩

/-- Non-vacuity: the method `Get` of the interface of the example package. -/
example : ∃ C, Run.pkgOut.facts.codes 90 = some C ∧ C.Nodup ∧ ∀ c, c ∈ C ↔ ∃ pad cm, DocItem.code c pad cm ∈ [.code b!"a-error" 0 b!" always"] :=
  interface_as_written Run.pkg_ran Run.schedule_fair Run.pkg_objects Run.pkg_program (d := Run.getter) (List.mem_cons_self ..)
    (im := ⟨65, ⟨64, b!"Get", none⟩, ⟨[], some [⟨[], 67⟩], 0⟩, some b!"Errors:\n\n  - a-error -- always\n"⟩) (List.mem_cons_self ..)
    (init := []) (last := ⟨[], 67⟩) rfl rfl (g := groupGet) (by decide +kernel) groupGet_written ⟨_, _, _, List.mem_cons_self ..⟩

end Serum.Props.Comments
