import Verif.ErrorDocsLemmas

/-!
Helper lemmas about documents given line by line, and about the lines a programmer writes in the
documented format.
-/

namespace Serum
open GoStr CodeFormat DocGrammar

/-- A doc comment with the given lines. -/
def docOf (ls : List GoString) : GoString := join [10] ls

theorem lines_docOf {ls : List GoString} (hne : ls ≠ []) (h : ∀ l ∈ ls, (10 : UInt8) ∉ l) :
    lines (docOf ls) = ls.map trimSpace := by
  unfold lines docOf; rw [split_join 10 ls hne h]

/-- The state after a run over already trimmed lines, as seen by `runDocs`. -/
def finish (r : Except DocError DocSM) : Except DocError DocResult :=
  match r with
  | .error e => .error e
  | .ok sm => .ok ⟨sm.seen, sm.param, sm.noCodesOk⟩

theorem runDocs_docOf {ls : List GoString} (hne : ls ≠ []) (h : ∀ l ∈ ls, (10 : UInt8) ∉ l) :
    runDocs (docOf ls) = finish (DocSM.start.loopT (ls.map trimSpace)) := by
  rw [runDocs_eq, lines_docOf hne h]; rfl

/-! ## No early occurrence of `" --"` -/

def NoOcc (x t : GoString) : Prop := ∀ i, i < x.length → ¬ b!" --" <+: (x ++ t).drop i

theorem noOcc_nil (t : GoString) : NoOcc [] t := by intro i hi; simp at hi

theorem noOcc_cons {a : UInt8} {x t : GoString} (h1 : ¬ b!" --" <+: a :: (x ++ t)) (h2 : NoOcc x t) :
    NoOcc (a :: x) t := by
  intro i hi
  cases i with
  | zero => exact h1
  | succ i => exact h2 i (by simpa using hi)

theorem noOcc_append {x y t : GoString} (h1 : NoOcc x (y ++ t)) (h2 : NoOcc y t) : NoOcc (x ++ y) t := by
  intro i hi
  by_cases h : i < x.length
  · rw [List.append_assoc]; exact h1 i h
  · rw [List.append_assoc, List.drop_append, List.drop_of_length_le (by omega), List.nil_append]
    exact h2 _ (by simp at hi; omega)

theorem noOcc_no_space {x : GoString} (h : (32 : UInt8) ∉ x) (t : GoString) : NoOcc x t := by
  induction x with
  | nil => exact noOcc_nil t
  | cons a x ih =>
    refine noOcc_cons ?_ (ih fun c => h (by simp [c]))
    rintro ⟨r, hr⟩
    simp at hr
    exact h (by simp [hr.1])

theorem noOcc_spaces (n : Nat) (t : GoString) : NoOcc (List.replicate n 32) (32 :: t) := by
  induction n with
  | zero => exact noOcc_nil _
  | succ n ih =>
    rw [List.replicate_succ]
    refine noOcc_cons ?_ ih
    rintro ⟨r, hr⟩
    cases n <;> simp [List.replicate_succ] at hr

theorem noOcc_dash {a : UInt8} (ha : a ≠ 45) (t : GoString) : NoOcc b!"- " (a :: t) := by
  refine noOcc_cons ?_ (noOcc_cons ?_ (noOcc_nil _))
  · rintro ⟨r, hr⟩; simp at hr
  · rintro ⟨r, hr⟩; simp at hr; exact ha hr.1.symm

theorem blank_no_dash {w : GoString} (h : IsBlank w) : (45 : UInt8) ∉ w := by
  induction h with
  | nil => simp
  | cons he _ ih =>
    intro c
    rcases List.mem_append.1 c with c | c
    · have : ∀ e ∈ spaceEncs, (45 : UInt8) ∉ e := by decide
      exact this _ he c
    · exact ih c

/-- Trimming a line `- x --comment` only shortens the comment. -/
theorem trimSpace_entry {v : GoString} (hv : IsBlank v) (x cm : GoString) :
    ∃ cm', trimSpace (v ++ (b!"- " ++ x ++ b!" --" ++ cm)) = b!"- " ++ x ++ b!" --" ++ cm' := by
  have h0 := trimSpace_pad hv blank_nil (b!"- " ++ x ++ b!" --" ++ cm)
  rw [List.append_nil] at h0
  rw [h0]
  obtain ⟨v', w, hv', hw, e⟩ := trimSpace_decomp (b!"- " ++ x ++ b!" --" ++ cm)
  generalize trimSpace (b!"- " ++ x ++ b!" --" ++ cm) = t at e
  have hv0 : v' = [] := by
    cases v' with
    | nil => rfl
    | cons a v' =>
      simp at e
      exact absurd (by simp [e.1]) (blank_no_dash hv')
  subst hv0
  rw [List.nil_append] at e
  rcases List.append_eq_append_iff.1 e with ⟨a', h1, h2⟩ | ⟨c', h1, h2⟩
  · exact ⟨a', h1⟩
  · rcases List.eq_nil_or_concat c' with rfl | ⟨m, z, rfl⟩
    · exact ⟨[], by simpa using h1.symm⟩
    · exfalso
      have hz : z = 45 := by
        have : (b!"- " ++ x ++ b!" --").getLast? = (t ++ m.concat z).getLast? := by rw [h1]
        rw [List.getLast?_append, List.concat_eq_append, ← List.append_assoc, List.getLast?_append] at this
        simpa using this.symm
      apply blank_no_dash hw
      rw [h2]; simp [hz]

/-- The line `- text --comment` (with any indentation and with spaces before the dashes). -/
def entryLine (indent text : GoString) (pad : Nat) (comment : GoString) : GoString :=
  indent ++ (b!"- " ++ (text ++ List.replicate pad 32) ++ b!" --" ++ comment)

theorem blank_spaces (n : Nat) : IsBlank (List.replicate n 32) := by
  induction n with
  | zero => exact .nil
  | succ n ih => rw [List.replicate_succ]; exact Blank.cons (e := [32]) (by decide) ih

theorem entryText_line {indent text comment : GoString} {pad : Nat} (hi : IsBlank indent)
    (ht : Trimmed text) (ho : ∀ t, NoOcc (b!"- " ++ text) (32 :: t)) :
    EntryText (trimSpace (entryLine indent text pad comment)) text := by
  obtain ⟨cm', h⟩ := trimSpace_entry hi (text ++ List.replicate pad 32) comment
  unfold entryLine
  rw [h]
  refine ⟨text ++ List.replicate pad 32, cm', rfl, ?_, ?_⟩
  · intro i hil
    have key : NoOcc (b!"- " ++ (text ++ List.replicate pad 32)) (32 :: (b!"--" ++ cm')) := by
      rw [← List.append_assoc]
      refine noOcc_append ?_ (noOcc_spaces _ _)
      cases pad with
      | zero => exact ho _
      | succ n => rw [List.replicate_succ]; exact ho _
    have := key i hil
    simpa using this
  · have := trimSpace_pad blank_nil (blank_spaces pad) text
    rw [List.nil_append] at this
    rw [this, trimSpace_of_trimmed ht]

theorem letter_visible {b : UInt8} (h : Letter b ∨ Digit b ∨ Dash b) : 33 ≤ b ∧ b < 127 := by
  simp only [Letter, Digit, Dash, UInt8.le_iff_toNat_le, UInt8.lt_iff_toNat_lt, ← UInt8.toNat_inj] at *
  simp at *
  omega

theorem wellFormed_trimmed {c : GoString} (h : WellFormed c) : Trimmed c := by
  apply trimmed_of_ends
  · intro b hb; exact letter_visible (wellFormed_bytes h b (List.mem_of_head? hb))
  · intro b hb; exact letter_visible (wellFormed_bytes h b (List.mem_of_getLast? hb))

theorem wellFormed_no_space {c : GoString} (h : WellFormed c) : (32 : UInt8) ∉ c := by
  intro hm
  have := letter_visible (wellFormed_bytes h _ hm)
  revert this; decide

theorem wellFormed_no_newline {c : GoString} (h : WellFormed c) : (10 : UInt8) ∉ c := by
  intro hm
  have := letter_visible (wellFormed_bytes h _ hm)
  revert this; decide

theorem wellFormed_head {c : GoString} (h : WellFormed c) : ∃ a t, c = a :: t ∧ a ≠ 45 := by
  have hl : ∀ b, Letter b → b ≠ 45 := by
    intro b hb e; subst e; simp only [Letter] at hb; revert hb; decide
  rcases h with ⟨f, m, z, e, hf, _⟩ | ⟨b, e, hb⟩
  · exact ⟨f, _, e, hl f hf⟩
  · exact ⟨b, _, e, hl b hb⟩

theorem entryCode_line {indent c comment : GoString} {pad : Nat} (hi : IsBlank indent)
    (hc : WellFormed c) : EntryCode (trimSpace (entryLine indent c pad comment)) c := by
  refine ⟨entryText_line hi (wellFormed_trimmed hc) ?_, hc⟩
  intro t
  obtain ⟨a, r, rfl, ha⟩ := wellFormed_head hc
  exact noOcc_append (noOcc_dash ha _) (noOcc_no_space (wellFormed_no_space hc) _)

theorem trimSpace_space_cons (p : GoString) : trimSpace (32 :: p) = trimSpace p := by
  have := trimSpace_pad (Blank.cons (encs := spaceEncs) (e := [32]) (by decide) .nil) blank_nil p
  simpa using this

/-- A usable error code parameter name: no white space around or inside, not starting with `-`.
Every Go identifier is one. -/
def ParamName (p : GoString) : Prop :=
  p ≠ [] ∧ Trimmed p ∧ (32 : UInt8) ∉ p ∧ (10 : UInt8) ∉ p ∧ p.head? ≠ some 45

theorem trimmed_param {p : GoString} (hp : ParamName p) : Trimmed (b!"param: " ++ p) := by
  intro e he
  constructor
  · intro hpre
    have : ∀ e ∈ spaceEncs, ∃ b, e.head? = some b ∧ b ≠ 112 := by decide
    obtain ⟨b, hb, hn⟩ := this e he
    obtain ⟨r, hr⟩ := hpre
    have h2 : (e ++ r).head? = some 112 := by rw [hr]; rfl
    rw [List.head?_append, hb] at h2
    simp at h2; exact hn h2
  · intro hs
    rcases List.suffix_or_suffix_of_suffix hs (List.suffix_append b!"param: " p) with h | h
    · exact (hp.2.1 e he).2 h
    · -- then p is a proper suffix of an encoding or equal to it
      obtain ⟨r, hr⟩ := h
      -- `e = r ++ p`; `e` is a suffix of "param: " ++ p, so r is a suffix of "param: "
      obtain ⟨q, hq⟩ := hs
      have hqr : q ++ r = b!"param: " := by
        rw [← hr, ← List.append_assoc] at hq
        exact List.append_cancel_right hq
      rcases List.eq_nil_or_concat r with rfl | ⟨m, z, rfl⟩
      · simp at hr; subst hr; exact (hp.2.1 _ he).2 (List.suffix_refl _)
      · have hz : z = 32 := by
          have : (q ++ m.concat z).getLast? = (b!"param: ").getLast? := by rw [hqr]
          simpa [List.getLast?_append] using this
        subst hz
        have : ∀ e ∈ spaceEncs, (32 : UInt8) ∈ e → e = [32] := by decide
        have h1 := this e he (by rw [← hr]; simp)
        subst h1
        have : p = [] := by
          have hl := congrArg List.length hr
          simp at hl
          exact List.length_eq_zero_iff.1 (by omega)
        exact hp.1 this

theorem entryParam_line {indent p comment : GoString} {pad : Nat} (hi : IsBlank indent)
    (hp : ParamName p) :
    EntryParam (trimSpace (entryLine indent (b!"param: " ++ p) pad comment)) p := by
  refine ⟨hp.1, 32 :: p, ?_, ?_⟩
  · have := entryText_line (comment := comment) (pad := pad) hi (trimmed_param hp) ?_
    · simpa using this
    · intro t
      have e : b!"- " ++ (b!"param: " ++ p) = (b!"- " ++ b!"param:") ++ (b!" " ++ p) := by simp
      rw [e]
      refine noOcc_append (noOcc_append (noOcc_dash (by decide) _) (noOcc_no_space (by decide) _)) ?_
      refine noOcc_append (x := b!" ") ?_ (noOcc_no_space hp.2.2.1 _)
      refine noOcc_cons ?_ (noOcc_nil _)
      rintro ⟨r, hr⟩
      obtain ⟨h1, _, _, _, h5⟩ := hp
      cases p with
      | nil => exact h1 rfl
      | cons a p => simp at hr; apply h5; simp [hr.1.symm]
  · rw [trimSpace_space_cons, trimSpace_of_trimmed hp.2.1]

/-! ## State facts -/

theorem loopT_no_init {sm sm' : DocSM} (ls : List GoString) (hs : sm.state ≠ .init)
    (h : sm.loopT ls = .ok sm') : sm'.state ≠ .init ∧ ∀ l ∈ ls, ¬ HasIndicator l := by
  induction ls generalizing sm with
  | nil => simp [DocSM.loopT] at h; subst h; exact ⟨hs, by simp⟩
  | cons l ls ih =>
    simp only [DocSM.loopT] at h
    cases hst : sm.step l with
    | error e => rw [hst] at h; cases h
    | ok sm1 =>
      rw [hst] at h
      dsimp only at h
      have key : sm1.state ≠ .init ∧ ¬ HasIndicator l := by
        unfold DocSM.step at hst
        split at hst
        · rename_i h0; exact absurd h0 hs
        · unfold DocSM.stepNeedBlankLine at hst
          split at hst
          · rename_i hl
            simp at hst; subst hst; subst hl
            exact ⟨by simp, by rintro ⟨r, hr⟩; simp at hr⟩
          · cases hst
        · by_cases hl : l = []
          · subst hl
            simp [DocSM.stepParsing] at hst; subst hst
            exact ⟨by simp, by rintro ⟨r, hr⟩; simp at hr⟩
          · obtain ⟨hb, hs1, _⟩ := stepParsing_nonblank hl hst
            exact ⟨by rw [hs1]; exact hs, hb.2.1⟩
        · unfold DocSM.stepDone at hst
          split at hst
          · cases hst
          · rename_i hi
            simp at hst; subst hst
            exact ⟨hs, fun c => hi ((hasPrefix_iff _ _).2 c)⟩
      obtain ⟨h1, h2⟩ := ih key.1 h
      refine ⟨h1, ?_⟩
      intro x hx
      rcases List.mem_cons.1 hx with rfl | hx
      · exact key.2
      · exact h2 x hx

theorem loopT_nonblank_parsing {sm sm' : DocSM} (ls : List GoString) (hs : sm.state = .parsing)
    (hn : ∀ l ∈ ls, l ≠ []) (h : sm.loopT ls = .ok sm') : sm'.state = .parsing := by
  induction ls generalizing sm with
  | nil => simp [DocSM.loopT] at h; subst h; exact hs
  | cons l ls ih =>
    simp only [DocSM.loopT, DocSM.step, hs] at h
    cases hst : sm.stepParsing l with
    | error e => rw [hst] at h; cases h
    | ok sm1 =>
      rw [hst] at h
      obtain ⟨_, hs1, _⟩ := stepParsing_nonblank (hn l (by simp)) hst
      exact ih (hs1.trans hs) (fun x hx => hn x (by simp [hx])) h

theorem loopT_closed {sm sm' : DocSM} (ls : List GoString) (hs : sm.state = .parsing ∨ sm.state = .done)
    (h : sm.loopT (ls ++ [[]]) = .ok sm') : sm'.state = .done := by
  induction ls generalizing sm with
  | nil =>
    rcases hs with hs | hs <;> simp [DocSM.loopT, DocSM.step, hs, DocSM.stepParsing, DocSM.stepDone] at h
    · subst h; rfl
    · split at h
      · rename_i h1; split at h1 <;> simp_all
      · rename_i h1; split at h1 <;> simp_all
  | cons l ls ih =>
    simp only [List.cons_append, DocSM.loopT] at h
    cases hst : sm.step l with
    | error e => rw [hst] at h; cases h
    | ok sm1 =>
      rw [hst] at h
      refine ih ?_ h
      unfold DocSM.step at hst
      rcases hs with hs | hs <;> rw [hs] at hst <;> dsimp only at hst
      · by_cases hl : l = []
        · subst hl; simp [DocSM.stepParsing] at hst; subst hst; exact .inr rfl
        · obtain ⟨_, hs1, _⟩ := stepParsing_nonblank hl hst
          exact .inl (hs1.trans hs)
      · unfold DocSM.stepDone at hst
        split at hst
        · cases hst
        · simp at hst; subst hst; exact .inr hs

/-- A text line has no effect once the machine has seen the blank line. -/
theorem step_text {sm : DocSM} (hs : sm.state = .parsing ∨ sm.state = .done) {l : GoString}
    (h1 : l ≠ []) (h2 : ¬ HasIndicator l) (h3 : ¬ b!"- " <+: l) : sm.step l = .ok sm := by
  have h2' := mt (hasPrefix_iff l b!"Errors:").1 h2
  have h3' := mt (hasPrefix_iff l b!"- ").1 h3
  rcases hs with hs | hs
  · simp only [DocSM.step, hs, DocSM.stepParsing]
    rw [if_neg h1, if_neg h2', if_neg h3']
  · simp only [DocSM.step, hs, DocSM.stepDone]
    rw [if_neg h2']

theorem loopT_keeps_open {sm sm' : DocSM} (ls : List GoString)
    (hs : sm.state = .parsing ∨ sm.state = .done)
    (h : sm.loopT ls = .ok sm') : sm'.state = .parsing ∨ sm'.state = .done := by
  induction ls generalizing sm with
  | nil => simp [DocSM.loopT] at h; subst h; exact hs
  | cons l ls ih =>
    simp only [DocSM.loopT] at h
    cases hst : sm.step l with
    | error e => rw [hst] at h; cases h
    | ok sm1 =>
      rw [hst] at h
      refine ih ?_ h
      unfold DocSM.step at hst
      rcases hs with hs | hs <;> rw [hs] at hst <;> dsimp only at hst
      · by_cases hl : l = []
        · subst hl; simp [DocSM.stepParsing] at hst; subst hst; exact .inr rfl
        · obtain ⟨_, hs1, _⟩ := stepParsing_nonblank hl hst
          exact .inl (hs1.trans hs)
      · unfold DocSM.stepDone at hst
        split at hst
        · cases hst
        · simp at hst; subst hst; exact .inr hs

theorem loopT_opened {sm : DocSM} (hs : sm.state = .init) (pre : List GoString) {e : GoString}
    (rest : List GoString) (hpre : ∀ l ∈ pre, Prose l) (he : StartsBlock e) :
    sm.loopT (pre ++ e :: [] :: rest) = ({ sm with state := .parsing } : DocSM).loopT rest := by
  rw [loopT_block_start hs pre e _ hpre he]
  simp [DocSM.loopT, DocSM.step, DocSM.stepNeedBlankLine]

end Serum
