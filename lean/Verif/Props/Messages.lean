import Verif.Messages
import Verif.Props.Texts
import Verif.Props.RunOrder

/-!
# C57 — the text of a diagnostic identifies the problem

Whatever names are inserted: two diagnostics that are shown with the same text were made from the same format and the same values.
-/

namespace Serum.Props.Messages
open Serum Serum.GoStr Texts

/-! ## Formats as sequences of bytes and verbs -/

/-- A part of a format. -/
inductive Tok where
  | byte (b : UInt8)
  | quoted
  | type
  | raw
deriving DecidableEq, Repr

/-- The parts of a format. -/
def tokens : GoString → List Tok
  | 37 :: 113 :: f => .quoted :: tokens f
  | 37 :: 115 :: f => .raw :: tokens f
  | 37 :: 118 :: f => .raw :: tokens f
  | 37 :: 84 :: f => .type :: tokens f
  | b :: f => .byte b :: tokens f
  | [] => []

/-- The text for given arguments. -/
def render (isPrint : Nat → Bool) : List Tok → List GoString → GoString
  | .byte b :: t, as => b :: render isPrint t as
  | .quoted :: t, a :: as => quote isPrint a ++ render isPrint t as
  | .type :: t, a :: as => b!"*ast." ++ a ++ render isPrint t as
  | .raw :: t, a :: as => a ++ render isPrint t as
  | _, _ => []

/-- There is one argument for each verb, and the names of types have no spaces. -/
def Fit : List Tok → List GoString → Prop
  | .byte _ :: t, as => Fit t as
  | .quoted :: t, _ :: as => Fit t as
  | .type :: t, a :: as => 32 ∉ a ∧ Fit t as
  | .raw :: t, _ :: as => Fit t as
  | [], [] => True
  | _, _ => False

theorem sprintf_render (isPrint : Nat → Bool) (f : GoString) (as : List GoString) (h : Fit (tokens f) as) :
    sprintf isPrint f as = render isPrint (tokens f) as := by
  fun_induction tokens f generalizing as with
  | case1 f ih => 
    cases as with
    | nil => simp [Fit] at h
    | cons a as => simp only [sprintf, render, ih as h]
  | case2 f ih => 
    cases as with
    | nil => simp [Fit] at h
    | cons a as => simp only [sprintf, render, ih as h]
  | case3 f ih => 
    cases as with
    | nil => simp [Fit] at h
    | cons a as => simp only [sprintf, render, ih as h]
  | case4 f ih => 
    cases as with
    | nil => simp [Fit] at h
    | cons a as => simp only [sprintf, render, ih as h.2]
  | case5 b f h1 h2 h3 h4 ih =>
    rw [sprintf]
    · simp only [render, ih as h]
    all_goals
      intros
      subst_vars
      first
        | exact h1 _ rfl rfl
        | exact h2 _ rfl rfl
        | exact h3 _ rfl rfl
        | exact h4 _ rfl rfl
  | case6 => cases as <;> simp [sprintf, render]

/-- A decision procedure: the texts of two formats differ, whatever is inserted. -/
def apart : List Tok → List Tok → Bool
  | .byte a :: t, .byte b :: u => a != b || apart t u
  | .byte a :: _, .quoted :: _ => a != 34
  | .quoted :: _, .byte a :: _ => a != 34
  | .byte a :: _, .type :: _ => a != 42
  | .type :: _, .byte a :: _ => a != 42
  | .quoted :: t, .quoted :: u => apart t u
  | .quoted :: _, .type :: _ => true
  | .type :: _, .quoted :: _ => true
  | .type :: .byte 32 :: t, .type :: .byte 32 :: u => apart t u
  | [], .byte _ :: _ => true
  | [], .quoted :: _ => true
  | [], .type :: _ => true
  | .byte _ :: _, [] => true
  | .quoted :: _, [] => true
  | .type :: _, [] => true
  | _, _ => false

theorem quote_head (isPrint : Nat → Bool) (a : GoString) : ∃ r, quote isPrint a = 34 :: r := ⟨_, rfl⟩

theorem apart_sound (isPrint : Nat → Bool) (t u : List Tok) (as bs : List GoString) (h : apart t u = true)
    (ht : Fit t as) (hu : Fit u bs) : render isPrint t as ≠ render isPrint u bs := by
  fun_induction apart t u generalizing as bs with
  | case1 a t b u ih =>
    simp only [bne_iff_ne, Bool.or_eq_true, Fit] at h ht hu
    simp only [render, ne_eq, List.cons.injEq, not_and]
    rintro rfl
    rcases h with h | h
    · exact absurd rfl h
    · exact ih as bs h ht hu
  | case2 a t u =>
    cases bs with
    | nil => simp [Fit] at hu
    | cons b bs => simp_all [render, quote]
  | case3 t a u =>
    cases as with
    | nil => simp [Fit] at ht
    | cons b bs => simp_all [render, quote]; intro h'; exact absurd h'.symm h
  | case4 a t u =>
    cases bs with
    | nil => simp [Fit] at hu
    | cons b bs => simp_all [render]
  | case5 t a u =>
    cases as with
    | nil => simp [Fit] at ht
    | cons b bs => simp_all [render]; intro h'; exact absurd h'.symm h
  | case6 t u ih =>
    cases as with
    | nil => simp [Fit] at ht
    | cons a as =>
      cases bs with
      | nil => simp [Fit] at hu
      | cons b bs =>
        intro e
        simp only [render] at e
        exact ih as bs h ht hu (quote_read isPrint e).2
  | case7 t u =>
    cases as with
    | nil => simp [Fit] at ht
    | cons a as =>
      cases bs with
      | nil => simp [Fit] at hu
      | cons b bs => simp [render, quote]
  | case8 t u =>
    cases as with
    | nil => simp [Fit] at ht
    | cons a as =>
      cases bs with
      | nil => simp [Fit] at hu
      | cons b bs => simp [render, quote]
  | case9 t u ih =>
    cases as with
    | nil => simp [Fit] at ht
    | cons a as =>
      cases bs with
      | nil => simp [Fit] at hu
      | cons b bs =>
        intro e
        simp only [render, List.append_assoc, List.append_cancel_left_eq] at e
        simp only [Fit] at ht hu
        exact ih as bs h ht.2 hu.2 (cut ht.1 hu.1 e).2
  | case10 => simp [render]
  | case11 t =>
    cases bs with
    | nil => simp [Fit] at hu
    | cons b bs => simp [render, quote]
  | case12 t =>
    cases bs with
    | nil => simp [Fit] at hu
    | cons b bs => simp [render]
  | case13 => simp [render]
  | case14 t =>
    cases as with
    | nil => simp [Fit] at ht
    | cons b bs => simp [render, quote]
  | case15 t =>
    cases as with
    | nil => simp [Fit] at ht
    | cons b bs => simp [render]
  | case16 => simp at h

/-- What is inserted can be read back: an unquoted value is the end of the text, and a type is followed by a space. -/
def clear : List Tok → Bool
  | .byte _ :: t => clear t
  | .quoted :: t => clear t
  | .type :: .byte 32 :: t => clear t
  | [.raw] => true
  | [] => true
  | _ => false

theorem clear_sound (isPrint : Nat → Bool) (t : List Tok) (as bs : List GoString) (h : clear t = true)
    (ht : Fit t as) (hu : Fit t bs) (e : render isPrint t as = render isPrint t bs) : as = bs := by
  fun_induction clear t generalizing as bs with
  | case1 b t ih =>
    simp only [render, List.cons.injEq, true_and] at e
    exact ih as bs h ht hu e
  | case2 t ih =>
    cases as with
    | nil => simp [Fit] at ht
    | cons a as =>
      cases bs with
      | nil => simp [Fit] at hu
      | cons b bs =>
        simp only [render] at e
        obtain ⟨rfl, e'⟩ := quote_read isPrint e
        rw [ih as bs h ht hu e']
  | case3 t ih =>
    cases as with
    | nil => simp [Fit] at ht
    | cons a as =>
      cases bs with
      | nil => simp [Fit] at hu
      | cons b bs =>
        simp only [render, List.append_assoc, List.append_cancel_left_eq] at e
        simp only [Fit] at ht hu
        obtain ⟨rfl, e'⟩ := cut ht.1 hu.1 e
        rw [ih as bs h ht.2 hu.2 e']
  | case4 =>
    cases as with
    | nil => simp [Fit] at ht
    | cons a as =>
      cases bs with
      | nil => simp [Fit] at hu
      | cons b bs =>
        cases as with
        | cons a' as => simp [Fit] at ht
        | nil =>
          cases bs with
          | cons b' bs => simp [Fit] at hu
          | nil => simpa [render] using e
  | case5 =>
    cases as with
    | nil => cases bs with
      | nil => rfl
      | cons b bs => simp [Fit] at hu
    | cons a as => simp [Fit] at ht
  | case6 => simp at h

/-! ## The formats in use -/

/-- A format in use; `fixed`: its verbs always get these values. -/
structure Form where
  format : GoString
  fixed : Option (List GoString) := none

/-- The format with the fixed values filled in. -/
def Form.tokens (f : Form) : List Tok :=
  match f.fixed with
  | none => Messages.tokens f.format
  | some as => (sprintf (fun _ => false) f.format as).map .byte

/-- All formats. -/
def forms : List Form := [
  ⟨b!"error in annotation: expected '=', '+=', '-=', '+code', or '-code' after '%s' indicator", some [b!"Error Codes"]⟩,
  ⟨b!"found multiple annotations for the same return statement: only one is allowed", none⟩,
  ⟨b!"invalid error code in annotation: %v", some [invalidCodeText]⟩,
  ⟨b!"invalid error code in annotation: code has to start with '+' or '-'", none⟩,
  ⟨b!"error code has to be of type string", none⟩,
  ⟨b!"problem unquoting string constant value: %v", some [b!"invalid syntax"]⟩,
  ⟨b!"error code has invalid format: %v", some [invalidCodeText]⟩,
  ⟨b!"expression %T does not implement valid error type", none⟩,
  ⟨b!"type assertion switch is not supported in error code analysis", none⟩,
  ⟨b!"type assertion is not supported in error code analysis", none⟩,
  ⟨b!"expression is not supported in error code analysis", none⟩,
  ⟨b!"expression %T is not supported in error code analysis", none⟩,
  ⟨b!"function %q in dot-imported package does not declare error codes", none⟩,
  ⟨b!"function %q in package %q does not declare error codes", none⟩,
  ⟨b!"invalid error source: definition of the unnamed function could not be found", none⟩,
  ⟨b!"called function does not declare error codes", none⟩,
  ⟨b!"error returning function literal may not be a parameter, receiver or global variable", none⟩,
  ⟨b!"error returning function literal may not be a parameter, global variable or other variables declared outside of the function body", none⟩,
  ⟨b!"unsupported: assigning result of function call to variable %q is not allowed", none⟩,
  ⟨b!"unsupported: assignment to variable %q can only be an identifier or function literal", none⟩,
  ⟨b!"returned error may not be a parameter, receiver or global variable", none⟩,
  ⟨b!"returned error may not be a parameter, global variable or other variables declared outside of the function body", none⟩,
  ⟨b!"unsupported: tracking error codes for function call with error as non-last return argument", none⟩,
  ⟨b!"expression does not define an error code", none⟩,
  ⟨b!"expression is not a valid error: error types must return constant error codes or a single field", none⟩,
  ⟨b!"could not find initialiser for error code field in contructor expression", none⟩,
  ⟨b!"unsupported use of error constructor %q", none⟩,
  ⟨b!"error code has to be constant value or error code parameter", none⟩,
  ⟨b!"require an error code parameter declaration to use %q as an error code", none⟩,
  ⟨b!"error code parameter may not be assigned an other parameter, receiver or global variable", none⟩,
  ⟨b!"unsupported: assigning result of function call to error code parameter %q is not allowed", none⟩,
  ⟨b!"type is an invalid error type", none⟩,
  ⟨b!"found no method \"Code() string\"", none⟩,
  ⟨b!"type %q is an invalid error type: could not find any error codes", none⟩,
  ⟨b!"returned field %q is not a valid error code field (promoted fields are not supported currently, but might be added in the future)", none⟩,
  ⟨b!"only single field allowed: cannot return field %q because field %q was returned previously", none⟩,
  ⟨b!"function %q should always return a string constant or a single field", none⟩,
  ⟨b!"error code variable may not be a parameter, receiver or global variable", none⟩,
  ⟨b!"error should be returned as the last argument", none⟩,
  ⟨b!"function %q has odd docstring: %s", none⟩,
  ⟨b!"error code parameter %q has to be of type string", none⟩,
  ⟨b!"declared error code parameter %q could not be found in parameter list", none⟩,
  ⟨b!"function %q is exported, but does not declare any error codes", none⟩,
  ⟨b!"interface method %q has odd docstring: %s", none⟩,
  ⟨b!"declaration of error constructors in interfaces is currently not supported", none⟩,
  ⟨b!"interface method %q does not declare any error codes", none⟩,
  ⟨b!"embedded interface is not compatible: method %q has mismatches in declared error codes: %s", none⟩,
  ⟨b!"function %q has a mismatch of declared and actual error codes: %s", none⟩,
  ⟨b!"cannot use expression as %q value: method %q declares the following error codes which were not part of the interface: %v", none⟩]

theorem forms_apart : forms.Pairwise fun f g => apart f.tokens g.tokens = true ∧ apart g.tokens f.tokens = true := by decide +kernel

theorem forms_clear : ∀ f ∈ forms, clear f.tokens = true := by decide +kernel

/-- A format in use, with values for its verbs. -/
def Used (m : Message) : Prop :=
  ∃ f ∈ forms, f.format = m.format ∧
    match f.fixed with
    | none => Fit (tokens m.format) m.args
    | some as => m.args = as

theorem render_bytes (isPrint : Nat → Bool) (s : GoString) : render isPrint (s.map .byte) [] = s := by
  induction s with
  | nil => rfl
  | cons b s ih => simp [render, ih]

theorem fit_bytes (s : GoString) : Fit (s.map .byte) [] := by
  induction s with
  | nil => trivial
  | cons b s ih => simpa [Fit] using ih

/-- Without quoted values, it does not matter which characters can be printed. -/
theorem render_plain (p q : Nat → Bool) : ∀ (t : List Tok) (as : List GoString), .quoted ∉ t → render p t as = render q t as
  | [], as => by simp [render]
  | .byte b :: t, as => fun h => by simp [render, render_plain p q t as (by simp at h; exact h)]
  | .quoted :: t, _ => fun h => by simp at h
  | .type :: t, [] => fun h => by simp [render]
  | .type :: t, a :: as => fun h => by simp [render, render_plain p q t as (by simp at h; exact h)]
  | .raw :: t, [] => fun h => by simp [render]
  | .raw :: t, a :: as => fun h => by simp [render, render_plain p q t as (by simp at h; exact h)]

/-- There is a value for each verb, and none of them is the name of a type. -/
def count : List Tok → Option Nat
  | .byte _ :: t => count t
  | .quoted :: t => (count t).map (· + 1)
  | .raw :: t => (count t).map (· + 1)
  | .type :: _ => none
  | [] => some 0

theorem fit_of_count : ∀ (t : List Tok) (as : List GoString), count t = some as.length → Fit t as
  | [], as => by cases as <;> simp [count, Fit]
  | .byte b :: t, as => fun h => by simp only [count] at h; simpa [Fit] using fit_of_count t as h
  | .quoted :: t, as => fun h => by
    simp only [count, Option.map_eq_some_iff] at h
    obtain ⟨n, h1, h2⟩ := h
    cases as with
    | nil => simp at h2
    | cons a as => simp at h2; subst h2; exact fit_of_count t as h1
  | .raw :: t, as => fun h => by
    simp only [count, Option.map_eq_some_iff] at h
    obtain ⟨n, h1, h2⟩ := h
    cases as with
    | nil => simp at h2
    | cons a as => simp at h2; subst h2; exact fit_of_count t as h1
  | .type :: t, as => fun h => by simp [count] at h

theorem forms_fixed : ∀ f ∈ forms, ∀ as ∈ f.fixed, .quoted ∉ tokens f.format ∧ count (tokens f.format) = some as.length := by
  decide +kernel

/-- The text of a message in use is that of its form. -/
theorem Used.render {m : Message} (h : Used m) (isPrint : Nat → Bool) : ∃ f ∈ forms, f.format = m.format ∧ ∃ as, Fit f.tokens as ∧
    m.text isPrint = Messages.render isPrint f.tokens as ∧ (∀ m' : Message, f.format = m'.format → (m'.args = m.args ↔ m' = m)) ∧
    (f.fixed = none ∧ as = m.args ∨ f.fixed = some m.args ∧ as = []) := by
  obtain ⟨f, hf, h1, h2⟩ := h
  have hm : ∀ m' : Message, f.format = m'.format → (m'.args = m.args ↔ m' = m) := by
    rintro ⟨x, y⟩ h
    cases m
    simp_all
  refine ⟨f, hf, h1, ?_⟩
  cases hx : f.fixed with
  | none =>
    simp only [hx] at h2
    have ht : f.tokens = tokens m.format := by simp [Form.tokens, hx, h1]
    exact ⟨m.args, ht ▸ h2, by rw [Message.text, ht, sprintf_render isPrint _ _ h2], hm, .inl ⟨rfl, rfl⟩⟩
  | some as =>
    simp only [hx] at h2
    obtain ⟨q1, q2⟩ := forms_fixed f hf as hx
    have ht : f.tokens = (sprintf (fun _ => false) f.format as).map .byte := by simp [Form.tokens, hx]
    refine ⟨[], ht ▸ fit_bytes _, ?_, hm, .inr ⟨by rw [h2], rfl⟩⟩
    have hfit := fit_of_count _ _ q2
    rw [ht, render_bytes, Message.text, ← h1, h2, sprintf_render _ _ _ hfit, sprintf_render _ _ _ hfit]
    exact render_plain _ _ _ _ q1

theorem pairwise_of_mem {α : Type} {R : α → α → Prop} {a b : α} : ∀ {l : List α}, l.Pairwise (fun x y => R x y ∧ R y x) → a ∈ l → b ∈ l → a ≠ b → R a b
  | [], _, h, _, _ => by simp at h
  | x :: l, h, ha, hb, hn => by
    simp only [List.pairwise_cons] at h
    rcases List.mem_cons.1 ha with rfl | ha
    · rcases List.mem_cons.1 hb with rfl | hb
      · exact absurd rfl hn
      · exact (h.1 b hb).1
    · rcases List.mem_cons.1 hb with rfl | hb
      · exact (h.1 _ ‹a ∈ l›).2
      · exact pairwise_of_mem h.2 ha hb hn

/-- Two messages with the same text have the same format and the same values inserted. -/
theorem readable (isPrint : Nat → Bool) {m m' : Message} (h : Used m) (h' : Used m') (e : m.text isPrint = m'.text isPrint) : m = m' := by
  obtain ⟨f, hf, h1, as, ha, h2, h3, h4⟩ := h.render isPrint
  obtain ⟨f', hf', h1', as', ha', h2', h3', h4'⟩ := h'.render isPrint
  rw [h2, h2'] at e
  by_cases hff : f = f'
  · subst hff
    have hc := clear_sound isPrint _ as as' (forms_clear f hf) ha ha' e
    refine (h3' m h1).1 ?_
    rcases h4 with ⟨q1, q2⟩ | ⟨q1, q2⟩ <;> rcases h4' with ⟨q1', q2'⟩ | ⟨q1', q2'⟩ <;> simp_all
  · exact absurd e (apart_sound isPrint _ _ _ _ (pairwise_of_mem (R := fun f g : Form => apart f.tokens g.tokens = true) forms_apart hf hf' hff) ha ha')

/-! ## All messages are of these forms -/

theorem used_of_count {format : GoString} {args : List GoString} (h : (⟨format, none⟩ : Form) ∈ forms) (hc : count (tokens format) = some args.length) :
    Used ⟨format, args⟩ := ⟨_, h, rfl, fit_of_count _ _ hc⟩

theorem used_of_fixed {format : GoString} {args : List GoString} (h : (⟨format, some args⟩ : Form) ∈ forms) :
    Used ⟨format, args⟩ := ⟨_, h, rfl, rfl⟩

/-- Membership in a list that is written down. -/
macro "listed" : tactic => `(tactic| repeat (first | exact List.Mem.head _ | apply List.Mem.tail))

macro "used" : tactic => `(tactic| first
  | (refine used_of_fixed ?_; listed; done)
  | (refine used_of_count ?_ rfl; listed; done))

theorem ann_used (d : AnnDiag) : Used d.message := by cases d <;> used

theorem const_used (e : ConstError) : Used e.message := by cases e <;> used

theorem msg_used (names : Names) (hk : ∀ n, 32 ∉ names.kind n) (declared : Bool) (at_ : NodeId) (m : Msg) : Used (m.message names declared at_) := by
  cases m with
  | annotation d => exact ann_used d
  | badConstant e => exact const_used e
  | notErrorType => exact ⟨⟨b!"expression %T does not implement valid error type", none⟩, by listed, rfl, ⟨(by decide : (32 : UInt8) ∉ b!"UnaryExpr"), trivial⟩⟩
  | exprUnsupported => exact ⟨⟨b!"expression %T is not supported in error code analysis", none⟩, by listed, rfl, ⟨hk at_, trivial⟩⟩
  | lambdaOutOfScope => cases declared <;> used
  | errorOutOfScope => cases declared <;> used
  | _ => used

theorem tagMsg_used (names : Names) (hk : ∀ n, 32 ∉ names.kind n) (at_ : NodeId) (m : TagMsg) : Used (m.message names at_) := by
  cases m with
  | badConstant e => exact const_used e
  | assignment m => exact msg_used names hk _ _ m
  | _ => used

theorem claimMsg_used (m : ClaimMsg) : Used m.message := by
  cases m <;> used

theorem ifaceMsg_used (m : IfaceMsg) : Used m.message := by
  cases m with
  | claim m => exact claimMsg_used m
  | _ => used

theorem mismatch_used (f t : GoString) : Used (mismatchMessage f t) := by unfold mismatchMessage; used

theorem report_used (names : Names) (r : Conv.Report) : Used (r.message names) := by unfold Conv.Report.message; used

/-- What is shown after a run. -/
theorem all_used {P : Package} {names : Names} (hk : ∀ n, 32 ∉ names.kind n) {out : Outcome} {d : NodeId × Message}
    (h : d ∈ out.messages P names) : Used d.2 := by
  simp only [Outcome.messages, List.mem_append, List.mem_map] at h
  rcases h with ((((⟨x, -, rfl⟩ | ⟨x, -, rfl⟩) | ⟨x, -, rfl⟩) | ⟨x, -, rfl⟩) | ⟨x, -, rfl⟩) | ⟨x, -, rfl⟩
  · exact tagMsg_used names hk _ _
  · exact ifaceMsg_used _
  · exact claimMsg_used _
  · exact msg_used names hk _ _ _
  · exact mismatch_used _ _
  · exact report_used names _

/-- **C57**, for runs: diagnostics that are shown with the same text, of the same run or of two runs over any two packages, have the same
format, and the same values were inserted. -/
theorem shown_readable {P P' : Package} (hp : P.env.isPrint = P'.env.isPrint) {names names' : Names} (hk : ∀ n, 32 ∉ names.kind n)
    (hk' : ∀ n, 32 ∉ names'.kind n) {out out' : Outcome} {d d' : NodeId × Message} (h : d ∈ out.messages P names)
    (h' : d' ∈ out'.messages P' names') (e : d.2.text P.env.isPrint = d'.2.text P'.env.isPrint) : d.2 = d'.2 :=
  readable _ (all_used hk h) (all_used hk' h') (hp ▸ e)

/-! ## Within a phase, no two problems share a message -/

macro "distinct" : tactic => `(tactic| (
  intro h
  first
    | rfl
    | (injection h with h1 h2; exact absurd h1 (by decide))
    | (injection h with h1 h2; simp at h2; simp [h2])))

theorem docError_text {e e' : DocError} : e.text = e'.text → e = e' := by
  cases e <;> cases e' <;> first | (intro _; rfl) | (intro h; exact absurd h (by decide))

theorem ann_inj {d d' : AnnDiag} : d.message = d'.message → d = d' := by
  cases d <;> cases d' <;> distinct

theorem const_inj {d d' : ConstError} : d.message = d'.message → d = d' := by
  cases d <;> cases d' <;> distinct

theorem claim_inj {m m' : ClaimMsg} : m.message = m'.message → m = m' := by
  cases m <;> cases m' <;> intro h <;> injection h with h1 h2 <;>
    first
      | rfl
      | exact absurd h1 (by decide)
      | (simp only [List.cons.injEq, and_true] at h2; simp [h2]; done)
      | (simp only [List.cons.injEq, and_true] at h2; simp [h2.1, docError_text h2.2])

theorem iface_inj {m m' : IfaceMsg} : m.message = m'.message → m = m' := by
  cases m with
  | claim c =>
    cases m' with
    | claim c' => intro h; rw [claim_inj h]
    | _ => cases c <;> intro h <;> injection h with h1 h2 <;> exact absurd h1 (by decide)
  | _ =>
    cases m' with
    | claim c => cases c <;> intro h <;> injection h with h1 h2 <;> exact absurd h1 (by decide)
    | _ =>
      intro h
      injection h with h1 h2
      first
        | rfl
        | exact absurd h1 (by decide)
        | (simp only [List.cons.injEq, and_true] at h2; simp [h2]; done)
        | (simp only [List.cons.injEq, and_true] at h2; simp [h2.1, docError_text h2.2])

/-- Within function bodies: only which of the objects of the same name is meant is not shown. -/
theorem msg_inj {names : Names} {declared declared' : Bool} {at_ at_' : NodeId} {m m' : Msg} :
    m.message names declared at_ = m'.message names declared' at_' → m = m' ∨
      ∃ o o', m = .constructorAsValue o ∧ m' = .constructorAsValue o' ∧ names.object o = names.object o' := by
  intro h
  rcases m with (_ | _ | _ | _) | _ | _ | _ | _ | _ | _ | _ | _ | _ | _ | _ | _ | _ | _ | _ | _ | _ | _ | (_ | _ | _) | _ | _ | _ | _ <;>
  rcases m' with (_ | _ | _ | _) | _ | _ | _ | _ | _ | _ | _ | _ | _ | _ | _ | _ | _ | _ | _ | _ | _ | _ | (_ | _ | _) | _ | _ | _ | _ <;>
  first
    | exact .inl rfl
    | (injection h with h1 h2; exact absurd h1 (by decide))
    | (injection h with h1 h2; simp only [List.cons.injEq, and_true] at h2; refine .inl ?_; simp [h2]; done)
    | (injection h with h1 h2; simp only [List.cons.injEq, and_true] at h2; exact .inr ⟨_, _, rfl, rfl, h2⟩)
    | (cases declared <;> injection h with h1 h2 <;> exact absurd h1 (by decide))
    | (cases declared' <;> injection h with h1 h2 <;> exact absurd h1 (by decide))
    | (cases declared <;> cases declared' <;> injection h with h1 h2 <;> exact absurd h1 (by decide))

/-- Among messages about error types themselves: only which of the objects of the same name is meant is not shown. -/
theorem tag_inj {names : Names} {at_ at_' : NodeId} {m m' : TagMsg} (ha : ∀ x, m ≠ .assignment x) (ha' : ∀ x, m' ≠ .assignment x) :
    m.message names at_ = m'.message names at_' → m = m' ∨ ∃ o o', m = .noCodes o ∧ m' = .noCodes o' ∧ names.object o = names.object o' := by
  intro h
  rcases m with _ | _ | _ | _ | (_ | _ | _) | _ | _ | _ | _ | x <;>
  rcases m' with _ | _ | _ | _ | (_ | _ | _) | _ | _ | _ | _ | x' <;>
  first
    | exact .inl rfl
    | exact absurd rfl (ha _)
    | exact absurd rfl (ha' _)
    | (injection h with h1 h2; exact absurd h1 (by decide))
    | (injection h with h1 h2; simp only [List.cons.injEq, and_true] at h2; refine .inl ?_; simp [h2]; done)
    | (injection h with h1 h2; simp only [List.cons.injEq, and_true] at h2; exact .inr ⟨_, _, rfl, rfl, h2⟩)

/-! ## The messages that list codes -/

theorem mismatch_text (isPrint : Nat → Bool) (f t : GoString) : (mismatchMessage f t).text isPrint = functionMismatchText isPrint f t := by
  simp [Message.text, mismatchMessage, sprintf, functionMismatchText]

theorem embedded_text (isPrint : Nat → Bool) (m t : GoString) :
    (IfaceMsg.message (.incompatible m t)).text isPrint = embeddedMismatchText isPrint m t := by
  simp [Message.text, IfaceMsg.message, sprintf, embeddedMismatchText]

theorem conversion_text (isPrint : Nat → Bool) (names : Names) (r : Conv.Report) :
    (r.message names).text isPrint = conversionText isPrint ((r.interface.map names.object).getD []) r.method r.codes := by
  simp [Message.text, Conv.Report.message, sprintf, conversionText]

/-! ## What is shown -/

theorem shown_body {P : Package} {names : Names} {out : Outcome} {f : FnId} {d : Diag} (h : (f, d) ∈ out.bodies) :
    (d.at_, (d.msg.message names (P.env.func f).declName.isSome d.at_).text P.env.isPrint) ∈ out.shown P names := by
  refine List.mem_map.2 ⟨(d.at_, d.msg.message names (P.env.func f).declName.isSome d.at_), ?_, rfl⟩
  unfold Outcome.messages
  simp only [List.mem_append, List.mem_map]
  exact .inl (.inl (.inr ⟨(f, d), h, rfl⟩))

/-- A mismatch between declared and actual codes is shown at the declaration, with the name of the function. -/
theorem shown_mismatch {P : Package} {names : Names} {out : Outcome} {f : FnId} {t : GoString} (h : (f, t) ∈ out.mismatches) :
    (P.decls.pos f, functionMismatchText P.env.isPrint (P.decls.name f) t) ∈ out.shown P names := by
  rw [← mismatch_text]
  refine List.mem_map.2 ⟨(P.decls.pos f, mismatchMessage (P.decls.name f) t), ?_, rfl⟩
  unfold Outcome.messages
  simp only [List.mem_append, List.mem_map]
  exact .inl (.inr ⟨(f, t), h, rfl⟩)

theorem plain_text (isPrint : Nat → Bool) : ∀ f : GoString, 37 ∉ f → sprintf isPrint f [] = f
  | [], _ => by simp [sprintf]
  | c :: f, h => by
    simp only [List.mem_cons, not_or] at h
    have := plain_text isPrint f h.2
    rw [sprintf] <;> simp_all

/-- What is returned from outside is explained in terms of the function: a declared function has parameters, a receiver, and global
variables around it, a function literal also variables of the functions it is in. -/
theorem shown_outside {P : Package} {names : Names} {out : Outcome} {f : FnId} {n : NodeId} :
    ((f, ⟨n, .errorOutOfScope⟩) ∈ out.bodies →
      ((P.env.func f).declName.isSome = true → (n, b!"returned error may not be a parameter, receiver or global variable") ∈ out.shown P names) ∧
      ((P.env.func f).declName.isSome = false →
        (n, b!"returned error may not be a parameter, global variable or other variables declared outside of the function body") ∈ out.shown P names)) ∧
    ((f, ⟨n, .lambdaOutOfScope⟩) ∈ out.bodies →
      ((P.env.func f).declName.isSome = true →
        (n, b!"error returning function literal may not be a parameter, receiver or global variable") ∈ out.shown P names) ∧
      ((P.env.func f).declName.isSome = false →
        (n, b!"error returning function literal may not be a parameter, global variable or other variables declared outside of the function body") ∈
          out.shown P names)) := by
  refine ⟨fun h => ⟨fun hd => ?_, fun hd => ?_⟩, fun h => ⟨fun hd => ?_, fun hd => ?_⟩⟩ <;>
  · have := shown_body (P := P) (names := names) h
    simp only [hd, Msg.message, Message.text, if_true, Bool.false_eq_true, if_false] at this
    rwa [plain_text _ _ (by decide)] at this

/-! ## What is shown does not depend on the order of iteration -/

theorem shown_perm {P : Package} {names : Names} {out out' : Outcome} (h : Run.SameOutcome out out') :
    (out.shown P names).Perm (out'.shown P names) := by
  unfold Outcome.shown Outcome.messages
  refine List.Perm.map _ ?_
  rw [h.tags]
  exact (((((List.Perm.refl _).append (h.ifaces.map _)).append ((h.signatures.append h.claims).map _)).append (h.bodies.map _)).append
    (h.mismatches.map _)).append (h.conversions.map _)

/-- **C20**, for what the user sees. Partial as `Run.order_independent_partial`. -/
theorem shown_order_independent_partial {P : Package} {S S' : Schedule} {strict : Bool} {out out' : Outcome} (names : Names)
    (h : runVerify P S strict = .ok out) (h' : runVerify P S' strict = .ok out') (hS : S.Fair) (hS' : S'.Fair)
    (ho : RunSpec.Objects P) (hp : Interfaces.Program P.ifaces)
    (hl₁ : ∀ f c, RunSpec.Compared P f c → CallGraph.Settled (P.plan (RunSpec.during P out.facts)) f)
    (hl : ∀ f, RunSpec.Asked (P.at_ out.facts) (RunSpec.checks P out.facts) f → CallGraph.Settled (RunSpec.seen P out.facts) f) :
    (out.shown P names).Perm (out'.shown P names) :=
  shown_perm (Run.order_independent_partial h h' hS hS' ho hp hl₁ hl)

/-! ## Examples -/

/-- Names for the example package. -/
def exampleNames : Names := ⟨fun o => if o = 20 then b!"Getter" else b!"?", fun _ => b!"FuncLit"⟩

example : Run.pkgOut.shown Run.pkg exampleNames = [(63, b!"cannot use expression as \"Getter\" value: method \"Get\" declares the following error codes which were not part of the interface: [x-error]")] := by
  decide +kernel

/-- The hypotheses hold for the example: in another order, the same is shown. -/
example : ∃ out', runVerify Run.pkg Run.schedule' false = .ok out' ∧ (Run.pkgOut.shown Run.pkg exampleNames).Perm (out'.shown Run.pkg exampleNames) := by
  obtain ⟨out', h1, h2⟩ := Run.pkg_order
  exact ⟨out', h1, shown_perm h2⟩

/-- Names that look like parts of a text do not confuse: quotes are escaped. -/
example : (Msg.message exampleNames true 1 (.foreignUndeclared b!"f\" in package \"q" b!"p")).text (fun _ => true) =
    b!"function \"f\\\" in package \\\"q\" in package \"p\" does not declare error codes" := by decide +kernel

example : (Msg.message exampleNames true 1 (.exprUnsupported)).text (fun _ => true) =
    b!"expression *ast.FuncLit is not supported in error code analysis" := by decide +kernel

end Serum.Props.Messages
