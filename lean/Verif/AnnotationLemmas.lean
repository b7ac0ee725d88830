import Verif.Annotation
import Verif.GoStringLemmas
import Verif.CodeSetLemmas
import Verif.Spec.AnnotationGrammar

namespace Serum
open GoStr CodeFormat AnnGrammar

/-- The meaning of a parsed annotation. -/
def Annotation.meaning (a : Annotation) : Meaning :=
  ⟨if a.shouldOverwrite then some (· ∈ a.overwrite) else none, (· ∈ a.addCodes), (· ∈ a.subCodes)⟩

theorem extractCodesLoop_ok (ps : List GoString) (S S' : CodeSet) :
    extractCodesLoop S ps = .ok S' ↔
      (∀ p ∈ ps, WellFormed (trimSpace p)) ∧ S' = (ps.map trimSpace).foldl CodeSet.add S := by
  induction ps generalizing S with
  | nil => simp [extractCodesLoop]; exact eq_comm
  | cons p ps ih =>
    simp only [extractCodesLoop]
    by_cases h : isErrorCodeValid (trimSpace p) = true
    · rw [if_pos h, ih]
      have := (isErrorCodeValid_iff_wellFormed _).1 h
      simp [this]
    · rw [if_neg h]
      have : ¬ WellFormed (trimSpace p) := fun c => h ((isErrorCodeValid_iff_wellFormed _).2 c)
      simp [this]

theorem extractCodes_sound {s : GoString} {S : CodeSet} (h : extractCodes s = .ok S) :
    CodeList s (· ∈ S) := by
  unfold extractCodes at h
  split at h
  · rename_i hb; simp at h; subst h; exact .inl ⟨hb, by simp⟩
  · rename_i hb
    rw [extractCodesLoop_ok] at h
    refine .inr ⟨hb, h.1, ?_⟩
    intro c
    show c ∈ S ↔ _
    rw [h.2, CodeSet.mem_foldl_add]
    simp only [List.not_mem_nil, false_or, List.mem_map]
    constructor
    · rintro ⟨p, hp, rfl⟩; exact ⟨p, hp, rfl⟩
    · rintro ⟨p, hp, rfl⟩; exact ⟨p, hp, rfl⟩

theorem codeList_unique {s : GoString} {C C' : GoString → Prop} (h : CodeList s C) (h' : CodeList s C') :
    C = C' := by
  funext c
  rcases h with ⟨h1, h2⟩ | ⟨h1, h2, h3⟩ <;> rcases h' with ⟨h1', h2'⟩ | ⟨h1', h2', h3'⟩
  · simp [h2, h2']
  · exact absurd h1 h1'
  · exact absurd h1' h1
  · rw [propext (h3 c), propext (h3' c)]

theorem extractCodes_complete {s : GoString} {C : GoString → Prop} (h : CodeList s C) :
    ∃ S, extractCodes s = .ok S ∧ (fun c => c ∈ S) = C := by
  have : ∃ S, extractCodes s = .ok S := by
    unfold extractCodes
    rcases h with ⟨h1, _⟩ | ⟨h1, h2, _⟩
    · exact ⟨[], by rw [if_pos h1]⟩
    · exact ⟨_, by rw [if_neg h1, extractCodesLoop_ok]; exact ⟨h2, rfl⟩⟩
  obtain ⟨S, hS⟩ := this
  exact ⟨S, hS, codeList_unique (extractCodes_sound hS) h⟩

/-- Conditions and effect of the loop over the words. -/
theorem extractModsLoop_ok (ps : List GoString) (a a' : Annotation) :
    extractModsLoop a ps = .ok a' →
      (∀ w ∈ (ps.map trimSpace).filter (· ≠ []), ∃ c, WellFormed c ∧ (w = b!"+" ++ c ∨ w = b!"-" ++ c)) ∧
      a'.shouldOverwrite = a.shouldOverwrite ∧ a'.overwrite = a.overwrite ∧
      (∀ c, c ∈ a'.addCodes ↔ c ∈ a.addCodes ∨ b!"+" ++ c ∈ (ps.map trimSpace).filter (· ≠ [])) ∧
      (∀ c, c ∈ a'.subCodes ↔ c ∈ a.subCodes ∨ b!"-" ++ c ∈ (ps.map trimSpace).filter (· ≠ [])) := by
  induction ps generalizing a with
  | nil => intro h; simp [extractModsLoop] at h; subst h; simp
  | cons p ps ih =>
    intro h
    simp only [extractModsLoop] at h
    cases ht : trimSpace p with
    | nil =>
      rw [ht] at h
      have := ih a h
      simpa [ht] using this
    | cons sign name =>
      rw [ht] at h
      dsimp only at h
      split at h
      · cases h
      rename_i hs
      split at h
      · rename_i hv
        have hw := (isErrorCodeValid_iff_wellFormed _).1 hv
        have hf : (List.map trimSpace (p :: ps)).filter (· ≠ []) =
            (sign :: name) :: (List.map trimSpace ps).filter (· ≠ []) := by
          rw [List.map_cons, ht, List.filter_cons_of_pos (by simp)]
        rw [hf]
        split at h
        · rename_i h43
          subst h43
          obtain ⟨h1, h2, h3, h4, h5⟩ := ih _ h
          refine ⟨?_, h2, h3, ?_, ?_⟩
          · intro w hw'
            rcases List.mem_cons.1 hw' with rfl | hw'
            · exact ⟨name, hw, .inl rfl⟩
            · exact h1 w hw'
          · intro c
            rw [h4, CodeSet.mem_add, List.mem_cons]
            constructor
            · rintro ((h | rfl) | h)
              · exact .inl h
              · exact .inr (.inl rfl)
              · exact .inr (.inr h)
            · rintro (h | h | h)
              · exact .inl (.inl h)
              · simp at h; exact .inl (.inr h)
              · exact .inr h
          · intro c
            rw [h5, List.mem_cons]
            constructor
            · rintro (h | h)
              · exact .inl h
              · exact .inr (.inr h)
            · rintro (h | h | h)
              · exact .inl h
              · simp at h
              · exact .inr h
        · rename_i h43
          have h45 : sign = 45 := by
            by_cases e : sign = 45
            · exact e
            · exact absurd ⟨h43, e⟩ hs
          subst h45
          obtain ⟨h1, h2, h3, h4, h5⟩ := ih _ h
          refine ⟨?_, h2, h3, ?_, ?_⟩
          · intro w hw'
            rcases List.mem_cons.1 hw' with rfl | hw'
            · exact ⟨name, hw, .inr rfl⟩
            · exact h1 w hw'
          · intro c
            rw [h4, List.mem_cons]
            constructor
            · rintro (h | h)
              · exact .inl h
              · exact .inr (.inr h)
            · rintro (h | h | h)
              · exact .inl h
              · simp at h
              · exact .inr h
          · intro c
            rw [h5, CodeSet.mem_add, List.mem_cons]
            constructor
            · rintro ((h | rfl) | h)
              · exact .inl h
              · exact .inr (.inl rfl)
              · exact .inr (.inr h)
            · rintro (h | h | h)
              · exact .inl (.inl h)
              · simp at h; exact .inl (.inr h)
              · exact .inr h
      · cases h

theorem extractModsLoop_total (ps : List GoString) (a : Annotation)
    (h : ∀ w ∈ (ps.map trimSpace).filter (· ≠ []), ∃ c, WellFormed c ∧ (w = b!"+" ++ c ∨ w = b!"-" ++ c)) :
    ∃ a', extractModsLoop a ps = .ok a' := by
  induction ps generalizing a with
  | nil => exact ⟨a, rfl⟩
  | cons p ps ih =>
    simp only [extractModsLoop]
    cases ht : trimSpace p with
    | nil =>
      exact ih a (by simpa [ht] using h)
    | cons sign name =>
      have hf : (List.map trimSpace (p :: ps)).filter (· ≠ []) =
          (sign :: name) :: (List.map trimSpace ps).filter (· ≠ []) := by
        rw [List.map_cons, ht, List.filter_cons_of_pos (by simp)]
      rw [hf] at h
      have hr := fun w hw => h w (List.mem_cons_of_mem _ hw)
      obtain ⟨c, hc, hs⟩ := h (sign :: name) (by simp)
      dsimp only
      rcases hs with hs | hs
      · simp at hs; obtain ⟨rfl, rfl⟩ := hs
        rw [if_neg (by simp), if_pos ((isErrorCodeValid_iff_wellFormed _).2 hc), if_pos rfl]
        exact ih _ hr
      · simp at hs; obtain ⟨rfl, rfl⟩ := hs
        rw [if_neg (by simp), if_pos ((isErrorCodeValid_iff_wellFormed _).2 hc), if_neg (by decide)]
        exact ih _ hr

theorem mods_sound {s : GoString} {a : Annotation} (h0 : b!"+" <+: s ∨ b!"-" <+: s)
    (h1 : ¬ b!"+=" <+: s) (h2 : ¬ b!"-=" <+: s) (h : extractMods .blank s = .ok a) :
    Says s a.meaning := by
  obtain ⟨hw, ho, _, ha, hs⟩ := extractModsLoop_ok _ _ _ h
  have : a.meaning = ⟨none, fun c => b!"+" ++ c ∈ words s, fun c => b!"-" ++ c ∈ words s⟩ := by
    unfold Annotation.meaning
    rw [ho]
    congr 1
    · funext c; rw [ha]; simp [Annotation.blank, words]
    · funext c; rw [hs]; simp [Annotation.blank, words]
  rw [this]
  exact .mods h0 h1 h2 hw

theorem nilset : (fun c : GoString => c ∈ ([] : CodeSet)) = fun _ => False := by funext c; simp

theorem parseAnnotation_sound {s : GoString} {a : Annotation} (h : parseAnnotation s = .ok a) :
    Says s a.meaning := by
  unfold parseAnnotation at h
  split at h
  · cases h
  · rename_i c rest
    split at h
    · rename_i hc; subst hc
      cases hx : extractCodes rest with
      | error e => rw [hx] at h; cases h
      | ok S =>
        rw [hx] at h; simp at h; subst h
        have := Says.overwrite (extractCodes_sound hx)
        simpa [Annotation.meaning, Annotation.blank] using this
    · split at h
      · rename_i hc; subst hc
        split at h
        · rename_i list
          cases hx : extractCodes list with
          | error e => rw [hx] at h; cases h
          | ok S =>
            rw [hx] at h; simp at h; subst h
            have := Says.add (extractCodes_sound hx)
            simpa [Annotation.meaning, Annotation.blank] using this
        · rename_i hne
          refine mods_sound (.inl ⟨rest, rfl⟩) ?_ ?_ h
          · rintro ⟨r, hr⟩; simp at hr; exact hne r hr.symm
          · rintro ⟨r, hr⟩; simp at hr
      · split at h
        · rename_i hc; subst hc
          split at h
          · rename_i list
            cases hx : extractCodes list with
            | error e => rw [hx] at h; cases h
            | ok S =>
              rw [hx] at h; simp at h; subst h
              have := Says.sub (extractCodes_sound hx)
              simpa [Annotation.meaning, Annotation.blank] using this
          · rename_i hne
            refine mods_sound (.inr ⟨rest, rfl⟩) ?_ ?_ h
            · rintro ⟨r, hr⟩; simp at hr
            · rintro ⟨r, hr⟩; simp at hr; exact hne r hr.symm
        · cases h

theorem parseAnnotation_complete {s : GoString} {m : Meaning} (h : Says s m) :
    ∃ a, parseAnnotation s = .ok a ∧ a.meaning = m := by
  cases h with
  | @overwrite list C hl =>
    obtain ⟨S, hS, rfl⟩ := extractCodes_complete hl
    refine ⟨{ Annotation.blank with shouldOverwrite := true, overwrite := S }, ?_,
      by simp [Annotation.meaning, Annotation.blank]⟩
    simp [parseAnnotation, hS]
  | @add list C hl =>
    obtain ⟨S, hS, rfl⟩ := extractCodes_complete hl
    refine ⟨{ Annotation.blank with addCodes := S }, ?_, by simp [Annotation.meaning, Annotation.blank]⟩
    simp [parseAnnotation, hS]
  | @sub list C hl =>
    obtain ⟨S, hS, rfl⟩ := extractCodes_complete hl
    refine ⟨{ Annotation.blank with subCodes := S }, ?_, by simp [Annotation.meaning, Annotation.blank]⟩
    simp [parseAnnotation, hS]
  | mods h0 h1 h2 hw =>
    obtain ⟨a, ha⟩ := extractModsLoop_total (split 32 s) .blank hw
    have hp : parseAnnotation s = .ok a := by
      rcases h0 with ⟨r, rfl⟩ | ⟨r, rfl⟩
      · simp only [List.cons_append, List.nil_append, parseAnnotation]
        rw [if_neg (by decide), if_pos trivial]
        split
        · exact absurd ⟨_, by simp; rfl⟩ h1
        · exact ha
      · simp only [List.cons_append, List.nil_append, parseAnnotation]
        rw [if_neg (by decide), if_neg (by decide), if_pos trivial]
        split
        · exact absurd ⟨_, by simp; rfl⟩ h2
        · exact ha
    refine ⟨a, hp, ?_⟩
    obtain ⟨_, ho, _, hadd, hsub⟩ := extractModsLoop_ok _ _ _ ha
    unfold Annotation.meaning
    rw [ho]
    congr 1
    · funext c; rw [hadd]; simp [Annotation.blank, words]
    · funext c; rw [hsub]; simp [Annotation.blank, words]

theorem says_nil (m : Meaning) : ¬ Says [] m := by
  generalize hs : ([] : GoString) = s
  intro h
  cases h with
  | overwrite => cases hs
  | add => cases hs
  | sub => cases hs
  | mods h0 =>
    subst hs
    rcases h0 with ⟨r, hr⟩ | ⟨r, hr⟩ <;> simp at hr

theorem says_unique {s : GoString} {m m' : Meaning} (h : Says s m) (h' : Says s m') : m = m' := by
  obtain ⟨a, e, rfl⟩ := parseAnnotation_complete h
  obtain ⟨a', e', rfl⟩ := parseAnnotation_complete h'
  rw [e] at e'; simp at e'; rw [e']

/-! ## The loop over the comment lines -/

/-- The loop restricted to the indicator texts. -/
def annotationLoopT (result : Option Annotation) (diags : List AnnDiag) :
    List GoString → Option Annotation × List AnnDiag
  | [] => (result, diags)
  | line :: lines =>
    if line = [] then (none, diags ++ [.expectedOp])
    else
      let diags := if result.isSome then diags ++ [.multiple] else diags
      match parseAnnotation line with
      | .error e => (none, diags ++ [e])
      | .ok a => annotationLoopT (some a) diags lines

theorem annotationLoop_eq (r : Option Annotation) (d : List AnnDiag) (ls : List GoString) :
    annotationLoop r d ls = annotationLoopT r d ((ls.map trimSpace).filterMap fun l =>
      if b!"Error Codes".isPrefixOf l then some (trimSpace (l.drop b!"Error Codes".length)) else none) := by
  induction ls generalizing r d with
  | nil => rfl
  | cons l ls ih =>
    simp only [annotationLoop, List.map_cons]
    by_cases hp : hasPrefix (trimSpace l) b!"Error Codes" = true
    · rw [if_neg (by simpa using hp)]
      have hp' : List.isPrefixOf b!"Error Codes" (trimSpace l) = true := hp
      rw [List.filterMap_cons_some (by rw [if_pos hp'])]
      simp only [annotationLoopT]
      have ht : trimPrefix (trimSpace l) b!"Error Codes" = (trimSpace l).drop b!"Error Codes".length := by
        unfold trimPrefix; rw [if_pos hp]
      rw [ht]
      split
      · rfl
      · split <;> simp_all
    · rw [if_pos (by simpa using hp)]
      have hp' : ¬ List.isPrefixOf b!"Error Codes" (trimSpace l) = true := hp
      rw [List.filterMap_cons_none (by rw [if_neg hp']), ih]

theorem getAnn_eq (groups : List GoString) (h : groups ≠ []) :
    getReturnStmtAnnotations groups = annotationLoopT none [] (indicatorTexts (join [10] groups)) := by
  unfold getReturnStmtAnnotations
  rw [if_neg h, annotationLoop_eq]; rfl

theorem annLoopT_diags_mono (ts : List GoString) (r : Option Annotation) (d : List AnnDiag) :
    ∃ d', (annotationLoopT r d ts).2 = d ++ d' := by
  induction ts generalizing r d with
  | nil => exact ⟨[], by simp [annotationLoopT]⟩
  | cons t ts ih =>
    simp only [annotationLoopT]
    split
    · exact ⟨_, rfl⟩
    · split
      · split
        · exact ⟨_, by simp; rfl⟩
        · exact ⟨_, rfl⟩
      · rename_i a _
        obtain ⟨d', h⟩ := ih (some a) (if r.isSome = true then d ++ [AnnDiag.multiple] else d)
        rw [h]
        split
        · exact ⟨_, by simp; rfl⟩
        · exact ⟨_, rfl⟩

/-- A malformed text: no result, at least one diagnostic. -/
theorem annLoopT_malformed (ts : List GoString) (r : Option Annotation) (d : List AnnDiag)
    (h : ∃ t ∈ ts, ∀ m, ¬ Says t m) :
    (annotationLoopT r d ts).1 = none ∧ (annotationLoopT r d ts).2 ≠ [] := by
  induction ts generalizing r d with
  | nil => obtain ⟨t, ht, _⟩ := h; simp at ht
  | cons t ts ih =>
    simp only [annotationLoopT]
    split
    · simp
    · split
      · simp
      · rename_i a ha
        apply ih
        obtain ⟨t', ht', hm⟩ := h
        rcases List.mem_cons.1 ht' with rfl | ht'
        · exact absurd (parseAnnotation_sound ha) (hm _)
        · exact ⟨t', ht', hm⟩

/-- All texts well-formed: the last one counts, one diagnostic for each further text. -/
theorem annLoopT_wellformed (ts : List GoString) (r : Option Annotation) (d : List AnnDiag)
    (t : GoString) (m : Meaning) (h : ∀ t ∈ ts, ∃ m, Says t m) (ht : Says t m) :
    ∃ a, annotationLoopT r d (ts ++ [t]) =
      (some a, d ++ List.replicate (ts.length + if r.isSome then 1 else 0) .multiple) ∧ a.meaning = m := by
  induction ts generalizing r d with
  | nil =>
    obtain ⟨a, ha, hm⟩ := parseAnnotation_complete ht
    have hne : t ≠ [] := by rintro rfl; exact says_nil m ht
    refine ⟨a, ?_, hm⟩
    simp only [List.nil_append, annotationLoopT, if_neg hne, ha]
    cases r <;> simp
  | cons s ts ih =>
    obtain ⟨m', hs⟩ := h s (by simp)
    obtain ⟨a', ha', _⟩ := parseAnnotation_complete hs
    have hne : s ≠ [] := by rintro rfl; exact says_nil m' hs
    obtain ⟨a, ha, hm⟩ := ih (some a') (if r.isSome = true then d ++ [AnnDiag.multiple] else d)
      (fun t ht => h t (by simp [ht]))
    refine ⟨a, ?_, hm⟩
    simp only [List.cons_append, annotationLoopT, if_neg hne, ha', ha]
    cases r
    · simp
    · simp only [Option.isSome_some, if_true, List.append_assoc, List.length_cons]
      rw [show [AnnDiag.multiple] = List.replicate 1 AnnDiag.multiple from rfl,
        List.replicate_append_replicate]
      congr 3
      omega

end Serum
