import Verif.AnnotationLemmas
import Verif.ErrorDocsLemmas

/-!
# C08, C09 (and the annotation half of C07) — return statement annotations

The comment above a return statement is a non-empty list of comment group texts; its text is these
joined by newlines.  The grammar is `Spec/AnnotationGrammar.lean`.
-/

namespace Serum.Props.Annotations
open Serum Serum.GoStr Serum.CodeFormat Serum.AnnGrammar

/-- The comment text of a return statement. -/
def commentText (groups : List GoString) : GoString := join [10] groups

/-- **C08.** No annotation line, or no comment at all: no annotation, no diagnostic. -/
theorem no_indicator (groups : List GoString) (h : groups = [] ∨ indicatorTexts (commentText groups) = []) :
    getReturnStmtAnnotations groups = (none, []) := by
  by_cases hg : groups = []
  · simp [getReturnStmtAnnotations, hg]
  · rcases h with h | h
    · exact absurd h hg
    · rw [getAnn_eq groups hg]; unfold commentText at h; rw [h]; rfl

/-- **C08.** An annotation is accepted silently iff the comment has exactly one annotation line and its
text is well-formed; the resulting sets are then exactly the ones it says. -/
theorem accepted_iff (groups : List GoString) (hg : groups ≠ []) (m : Meaning) :
    (∃ a, getReturnStmtAnnotations groups = (some a, []) ∧ a.meaning = m) ↔
      ∃ t, indicatorTexts (commentText groups) = [t] ∧ Says t m := by
  rw [getAnn_eq groups hg]
  unfold commentText
  generalize indicatorTexts (join [10] groups) = ts
  constructor
  · rintro ⟨a, h, rfl⟩
    by_cases hm : ∃ t ∈ ts, ∀ m, ¬ Says t m
    · have := (annLoopT_malformed ts none [] hm).1
      rw [h] at this; cases this
    · have hall : ∀ t ∈ ts, ∃ m, Says t m := by
        intro t ht
        refine Classical.byContradiction fun c => hm ⟨t, ht, fun m hs => c ⟨m, hs⟩⟩
      rcases List.eq_nil_or_concat ts with rfl | ⟨init, t, rfl⟩
      · simp [annotationLoopT] at h
      · rw [List.concat_eq_append] at *
        obtain ⟨mt, hmt⟩ := hall t (by simp)
        obtain ⟨a', e, hm'⟩ := annLoopT_wellformed init none [] t mt (fun t ht => hall t (by simp [ht])) hmt
        rw [h] at e
        simp at e
        obtain ⟨rfl, e2⟩ := e
        have hi : init = [] := e2
        subst hi
        exact ⟨t, rfl, by rw [hm']; exact hmt⟩
  · rintro ⟨t, rfl, hs⟩
    obtain ⟨a, h, hm⟩ := annLoopT_wellformed [] none [] t m (by simp) hs
    exact ⟨a, by simpa using h, hm⟩

/-- **C08.** If any annotation line is malformed, a diagnostic is emitted and the comment has no
effect. -/
theorem malformed_reported (groups : List GoString) (h : ∃ t ∈ indicatorTexts (commentText groups),
    ∀ m, ¬ Says t m) :
    (getReturnStmtAnnotations groups).1 = none ∧ (getReturnStmtAnnotations groups).2 ≠ [] := by
  by_cases hg : groups = []
  · subst hg
    exfalso
    obtain ⟨t, ht, _⟩ := h
    have : indicatorTexts (commentText []) = [] := by decide
    rw [this] at ht; simp at ht
  · rw [getAnn_eq groups hg]; exact annLoopT_malformed _ _ _ h

/-- **C08.** Several annotation lines, all well-formed: each one after the first is reported, and the
last one is used. -/
theorem several_reported (groups : List GoString) (hg : groups ≠ []) (ts : List GoString) (t : GoString)
    (m : Meaning) (hts : indicatorTexts (commentText groups) = ts ++ [t]) (h : ∀ t ∈ ts, ∃ m, Says t m)
    (ht : Says t m) :
    ∃ a, getReturnStmtAnnotations groups = (some a, List.replicate ts.length .multiple) ∧ a.meaning = m := by
  obtain ⟨a, e, hm⟩ := annLoopT_wellformed ts none [] t m h ht
  refine ⟨a, ?_, hm⟩
  rw [getAnn_eq groups hg]
  unfold commentText at hts
  rw [hts, e]; simp

/-- The meaning of a text is unique. -/
theorem meaning_unique (t : GoString) (m m' : Meaning) (h : Says t m) (h' : Says t m') : m = m' :=
  says_unique h h'

-- Non-vacuity
example : getReturnStmtAnnotations [b!"we know better\nError Codes -= a-1 , b,c\n"] =
    (some ⟨false, [], [], [b!"a-1", b!"b", b!"c"]⟩, []) := by decide +kernel
example : getReturnStmtAnnotations [b!"Error Codes +a  -b +c"] =
    (some ⟨false, [], [b!"a", b!"c"], [b!"b"]⟩, []) := by decide +kernel
example : getReturnStmtAnnotations [b!"Error Codes ="] = (some ⟨true, [], [], []⟩, []) := by decide +kernel
example : getReturnStmtAnnotations [b!"Error Codes a, b"] = (none, [.expectedOp]) := by decide +kernel
example : getReturnStmtAnnotations [b!"Error Codes -a, +b"] = (none, [.invalidCode]) := by decide +kernel
example : getReturnStmtAnnotations [b!"Error Codes +a +b", b!"Error Codes -= a"] =
    (some ⟨false, [], [], [b!"a"]⟩, [.multiple]) := by decide +kernel
example : ∃ m, Says b!"= a, b" m :=
  ⟨_, parseAnnotation_sound (a := ⟨true, [b!"a", b!"b"], [], []⟩) (by decide +kernel)⟩

/-! ## C09 -/

/-- The codes a return statement contributes according to the documentation. -/
def Contributes (m : Option Meaning) (analysed : GoString → Prop) (c : GoString) : Prop :=
  match m with
  | none => analysed c
  | some ⟨some C, _, _⟩ => C c
  | some ⟨none, add, remove⟩ => (analysed c ∧ ¬ remove c) ∨ add c

/-- **C09.** With an overwrite annotation exactly the listed codes are contributed, otherwise the
analysed codes minus the removed ones plus the added ones (a code both removed and added is
contributed). -/
theorem effect (a : Option Annotation) (analysed : CodeSet) (c : GoString) :
    c ∈ applyAnnotation a analysed ↔ Contributes (a.map Annotation.meaning) (· ∈ analysed) c := by
  cases a with
  | none => rfl
  | some a =>
    obtain ⟨o, ov, ad, su⟩ := a
    cases o <;> simp [applyAnnotation, Contributes, Annotation.meaning]

/-- A code both removed and added is contributed, whatever was analysed. -/
theorem removed_and_added (a : Annotation) (h : a.shouldOverwrite = false) (analysed : CodeSet) (c : GoString)
    (hadd : c ∈ a.addCodes) : c ∈ applyAnnotation (some a) analysed := by
  rw [effect]; simp [Contributes, Annotation.meaning, h, hadd]

example : applyAnnotation (some ⟨false, [], [b!"a", b!"x"], [b!"a", b!"b"]⟩) [b!"a", b!"b", b!"c"] =
    [b!"c", b!"a", b!"x"] := by decide +kernel

/-! ## C07, annotation half -/

/-- **C07.** Every code in an annotation is well-formed. -/
theorem annotation_codes_wellFormed (groups : List GoString) (a : Annotation)
    (h : (getReturnStmtAnnotations groups).1 = some a) :
    (∀ c ∈ a.addCodes, WellFormed c) ∧ (∀ c ∈ a.subCodes, WellFormed c) ∧
      (a.shouldOverwrite = true → ∀ c ∈ a.overwrite, WellFormed c) := by
  have hsays : ∃ t, Says t a.meaning := by
    by_cases hg : groups = []
    · simp [getReturnStmtAnnotations, hg] at h
    · rw [getAnn_eq groups hg] at h
      have key : ∀ (ts : List GoString) r d, (annotationLoopT r d ts).1 = some a →
          (r = some a) ∨ ∃ t, Says t a.meaning := by
        intro ts
        induction ts with
        | nil => intro r d h; exact .inl h
        | cons t ts ih =>
          intro r d h
          simp only [annotationLoopT] at h
          split at h
          · cases h
          · split at h
            · cases h
            · rename_i a' ha'
              rcases ih _ _ h with h1 | h1
              · simp at h1; subst h1; exact .inr ⟨t, parseAnnotation_sound ha'⟩
              · exact .inr h1
      rcases key _ _ _ h with h1 | h1
      · cases h1
      · exact h1
  obtain ⟨t, ht⟩ := hsays
  have cl : ∀ {list : GoString} {C : GoString → Prop}, CodeList list C → ∀ c, C c → WellFormed c := by
    intro list C hl c hc
    rcases hl with ⟨_, h2⟩ | ⟨_, h2, h3⟩
    · exact absurd hc (h2 c)
    · obtain ⟨p, hp, rfl⟩ := (h3 c).1 hc; exact h2 p hp
  have hm : a.meaning = ⟨if a.shouldOverwrite then some (· ∈ a.overwrite) else none,
      (· ∈ a.addCodes), (· ∈ a.subCodes)⟩ := rfl
  rw [hm] at ht
  generalize ho : (if a.shouldOverwrite then some (fun x => x ∈ a.overwrite) else none) = O at ht
  generalize hA : (fun x => x ∈ a.addCodes) = A at ht
  generalize hS : (fun x => x ∈ a.subCodes) = S at ht
  have mA : ∀ c, c ∈ a.addCodes ↔ A c := fun c => by rw [← hA]
  have mS : ∀ c, c ∈ a.subCodes ↔ S c := fun c => by rw [← hS]
  have mO : a.shouldOverwrite = true → O = some (fun x => x ∈ a.overwrite) := by
    intro h; rw [← ho, if_pos h]
  cases ht with
  | overwrite hl =>
    refine ⟨fun c hc => ((mA c).1 hc).elim, fun c hc => ((mS c).1 hc).elim, fun h c hc => ?_⟩
    have := mO h
    simp at this
    exact cl hl c (by rw [this]; exact hc)
  | add hl =>
    refine ⟨fun c hc => cl hl c ((mA c).1 hc), fun c hc => ((mS c).1 hc).elim, fun h => ?_⟩
    cases mO h
  | sub hl =>
    refine ⟨fun c hc => ((mA c).1 hc).elim, fun c hc => cl hl c ((mS c).1 hc), fun h => ?_⟩
    cases mO h
  | mods _ _ _ hw =>
    refine ⟨fun c hc => ?_, fun c hc => ?_, fun h => ?_⟩
    · obtain ⟨c', hc', h | h⟩ := hw _ ((mA c).1 hc)
      · simp at h; rw [h]; exact hc'
      · simp at h
    · obtain ⟨c', hc', h | h⟩ := hw _ ((mS c).1 hc)
      · simp at h
      · simp at h; rw [h]; exact hc'
    · cases mO h

end Serum.Props.Annotations
