import Verif.MachineSteps
import Verif.Props.Linked

/-! # The machine for programs of several packages -/

universe u

namespace Serum.Runtime
open Flow Analyse Props.Calls Props.Extract

/-! ## `Extra.declared` matters only where functions known by their declaration are called -/

section
variable {env : Env} {X : Extra} {D D' : Object → GoString → Obj → Prop} {f : FnId} {body : List Node} {arg : GoString}

theorem text_declared {p : Place} {t : GoString} (h : Text env { X with declared := D } f body arg p t) :
    Text env { X with declared := D' } f body arg p t := by
  induction h with
  | constant h => exact .constant h
  | read h1 h2 h3 _ ih => exact .read h1 h2 h3 ih
  | unknown h1 h2 => exact .unknown h1 h2
  | argument h => exact .argument h
  | zero => exact .zero
  | outside h1 h2 => exact .outside h1 h2
  | wild h => exact .wild h
  | assigned h1 _ ih => exact .assigned h1 ih
  | destructured h => exact .destructured h

theorem fieldInit_declared {et : ErrorType} {elts : List Node} {s : GoString} (h : FieldInit env { X with declared := D } f body arg et elts s) :
    FieldInit env { X with declared := D' } f body arg et elts s := by
  intro field hf
  rcases h field hf with ⟨e, v, h1, h2, h3⟩ | ⟨h1, v, h2, h3⟩ | h
  · exact .inl ⟨e, v, h1, h2, text_declared h3⟩
  · exact .inr (.inl ⟨h1, v, h2, text_declared h3⟩)
  · exact .inr (.inr h)

theorem stored_declared {et : ErrorType} {s : GoString} (h : Stored env { X with declared := D } f body arg et s) :
    Stored env { X with declared := D' } f body arg et s := by
  cases h with
  | foreign h => exact .foreign h
  | assigned h1 h2 h3 h4 h5 h6 h7 h8 => exact .assigned h1 h2 h3 h4 h5 h6 h7 (text_declared h8)
  | unknown h1 h2 h3 h4 h5 => exact .unknown h1 h2 h3 h4 h5

theorem argText_declared {args : List Node} {k : Nat} {s : GoString} (h : ArgText env { X with declared := D } f body arg args k s) :
    ArgText env { X with declared := D' } f body arg args k s := fun e he => text_declared (h e he)

end

/-- Only finitely many calls are made. -/
theorem yields_finite {env : Env} {X : Extra} {D : Nat → Object → GoString → Obj → Prop} {O : Origin} {o : Obj}
    (h : Yields env { X with declared := fun q a o => ∃ n, D n q a o } O o) : ∃ n, Yields env { X with declared := D n } O o := by
  induction h with
  | noBody h => exact ⟨0, .noBody h⟩
  | deferred h => exact ⟨0, .deferred h⟩
  | returned h1 h2 h3 _ h5 ih => obtain ⟨n, ih⟩ := ih; exact ⟨n, .returned h1 h2 h3 ih h5⟩
  | read h1 h2 _ ih => obtain ⟨n, ih⟩ := ih; exact ⟨n, .read h1 h2 ih⟩
  | unresolved h1 h2 h3 => exact ⟨0, .unresolved h1 h2 h3⟩
  | address h1 h2 h3 _ ih => obtain ⟨n, ih⟩ := ih; exact ⟨n, .address h1 h2 h3 ih⟩
  | addressUnresolved h1 h2 h3 h4 => exact ⟨0, .addressUnresolved h1 h2 h3 h4⟩
  | literal h1 h2 h3 => exact ⟨0, .literal h1 h2 (fieldInit_declared h3)⟩
  | pointerLiteral h1 h2 h3 h4 => exact ⟨0, .pointerLiteral h1 h2 h3 (fieldInit_declared h4)⟩
  | pointer h1 h2 h3 h4 => exact ⟨0, .pointer h1 h2 h3 h4⟩
  | basic h1 h2 => exact ⟨0, .basic h1 h2⟩
  | untagged h1 h2 h3 h4 => exact ⟨0, .untagged h1 h2 h3 h4⟩
  | called h1 _ ih => obtain ⟨n, ih⟩ := ih; exact ⟨n, .called h1 ih⟩
  | unknown h => exact ⟨0, .unknown h⟩
  | outside h => exact ⟨0, .outside h⟩
  | wild h => exact ⟨0, .wild h⟩
  | derefs h => exact ⟨0, .derefs h⟩
  | zero h => exact ⟨0, .zero h⟩
  | assigned h1 _ ih => obtain ⟨n, ih⟩ := ih; exact ⟨n, .assigned h1 ih⟩
  | asserted h1 h2 _ ih => obtain ⟨n, ih⟩ := ih; exact ⟨n, .asserted h1 h2 ih⟩
  | lastResult h1 h2 h3 h4 _ ih => obtain ⟨n, ih⟩ := ih; exact ⟨n, .lastResult h1 h2 h3 h4 ih⟩
  | destructured h1 h2 h3 => exact ⟨0, .destructured h1 h2 h3⟩
  | stored _ h ih => obtain ⟨n, ih⟩ := ih; exact ⟨n, .stored ih (stored_declared h)⟩
  | storedExpr _ h ih => obtain ⟨n, ih⟩ := ih; exact ⟨n, .storedExpr ih (stored_declared h)⟩
  | storedCall _ h ih => obtain ⟨n, ih⟩ := ih; exact ⟨n, .storedCall ih (stored_declared h)⟩
  | derefsExpr h => exact ⟨0, .derefsExpr h⟩
  | derefsCall h => exact ⟨0, .derefsCall h⟩
  | conversion h1 h2 => exact ⟨0, .conversion h1 h2⟩
  | untaggedConversion h1 h2 => exact ⟨0, .untaggedConversion h1 h2⟩
  | trusted h1 h2 h3 h4 => obtain ⟨n, h4⟩ := h4; exact ⟨n, .trusted h1 h2 (fun p hp => argText_declared (h3 p hp)) h4⟩
  | own h1 h2 h3 h4 _ ih => obtain ⟨n, ih⟩ := ih; exact ⟨n, .own h1 h2 h3 (fun p hp => argText_declared (h4 p hp)) ih⟩
  | throughVar h1 h2 h3 _ ih => obtain ⟨n, ih⟩ := ih; exact ⟨n, .throughVar h1 h2 h3 ih⟩
  | unknownCallee h1 h2 h3 h4 => exact ⟨0, .unknownCallee h1 h2 h3 h4⟩
  | fnOutside h => exact ⟨0, .fnOutside h⟩
  | fnWild h => exact ⟨0, .fnWild h⟩
  | fnDestructured h => exact ⟨0, .fnDestructured h⟩
  | fnCopied h1 h2 _ ih => obtain ⟨n, ih⟩ := ih; exact ⟨n, .fnCopied h1 h2 ih⟩
  | fnAssigned h1 h2 _ ih => obtain ⟨n, ih⟩ := ih; exact ⟨n, .fnAssigned h1 h2 ih⟩
  | applyTrusted h1 h2 h3 => obtain ⟨n, h3⟩ := h3; exact ⟨n, .applyTrusted h1 h2 h3⟩
  | applyOwn h1 h2 _ ih => obtain ⟨n, ih⟩ := ih; exact ⟨n, .applyOwn h1 h2 ih⟩
  | applyUnknown h1 h2 => exact ⟨0, .applyUnknown h1 h2⟩

end Serum.Runtime

namespace Serum.Machine
open Flow Analyse Serum.Runtime Props.Calls Props.Extract

/-! ## The machine does not use `Extra.declared` -/

section
variable {P : Type u} {env : P → Env} {X : P → Extra} {exec : Object → P → FnId → Prop} {D : P → Object → GoString → Obj → Prop}
  {s : State P}

/-- Fill in what calls of functions known by their declaration return. -/
def filled (X : P → Extra) (D : P → Object → GoString → Obj → Prop) (p : P) : Extra := { X p with declared := D p }

theorem unmodelled_declared {p : P} {e : Node} {v : Val P} (h : Unmodelled env X s p e v) : Unmodelled env (filled X D) s p e v := by
  cases h with
  | text h1 h2 => exact .text h1 h2
  | unresolved h1 h2 h3 => exact .unresolved h1 h2 h3
  | addressUnresolved h1 h2 h3 h4 => exact .addressUnresolved h1 h2 h3 h4
  | pointer h1 h2 h3 h4 h5 => exact .pointer h1 h2 h3 h4 h5
  | basic h1 h2 h3 => exact .basic h1 h2 h3
  | untagged h1 h2 h3 h4 => exact .untagged h1 h2 h3 h4
  | unknown h => exact .unknown h
  | conversion h1 h2 h3 h4 => exact .conversion h1 h2 h3 h4
  | untaggedConversion h1 h2 h3 => exact .untaggedConversion h1 h2 h3
  | unknownCallee h1 h2 h3 h4 h5 => exact .unknownCallee h1 h2 h3 h4 h5
  | fn h1 h2 h3 => exact .fn h1 h2 h3

theorem value_declared {A : Act P} {F : Frame P} {e : Node} {v : Val P} (h : Value env X exec s A F e v) :
    Value env (filled X D) exec s A F e v := by
  cases h with
  | nil => exact .nil
  | other => exact .other
  | constant h => exact .constant h
  | read h1 h2 h3 h4 => exact .read h1 h2 h3 h4
  | free h1 h2 h3 h4 => exact .free h1 h2 h3 h4
  | address h1 h2 h3 h4 h5 => exact .address h1 h2 h3 h4 h5
  | addressFree h1 h2 h3 h4 => exact .addressFree h1 h2 h3 h4
  | composite h1 h2 h3 h4 => exact .composite h1 h2 h3 h4
  | pointerComposite h1 h2 h3 h4 h5 => exact .pointerComposite h1 h2 h3 h4 h5
  | copy h1 h2 h3 => exact .copy h1 h2 h3
  | literal h => exact .literal h
  | trusted h1 h2 h3 h4 => exact .trusted h1 h2 h3 h4
  | own h1 h2 h3 => exact .own h1 h2 h3
  | unmodelled h1 h2 => exact .unmodelled (unmodelled_declared h1) h2

theorem callee_declared {A : Act P} {F : Frame P} {id : NodeId} {fn : Node} {args : List Node} {t : GoString} {c : Closure P}
    (h : Callee env X exec A F id fn args t c) : Callee env (filled X D) exec A F id fn args t c := by
  cases h with
  | trusted h1 h2 h3 h4 => exact .trusted h1 h2 h3 h4
  | own h1 h2 h3 h4 => exact .own h1 h2 h3 h4
  | literal h1 h2 h3 h4 => exact .literal h1 h2 h3 h4
  | throughVar h1 h2 h3 h4 h5 => exact .throughVar h1 h2 h3 h4 h5

theorem step_declared {l : Option (Frame P × Obj)} {s' : State P} (h : Step env X exec s l s') : Step env (filled X D) exec s l s' := by
  cases h with
  | object h => exact .object h
  | eval h1 h2 h3 => exact .eval h1 h2 (value_declared h3)
  | declare h1 h2 => exact .declare h1 h2
  | assign h1 h2 => exact .assign h1 h2
  | memory h1 h2 h3 h4 => exact .memory h1 h2 h3 h4
  | overwrite h1 h2 h3 h4 h5 h6 h7 h8 => exact .overwrite h1 h2 h3 h4 h5 h6 h7 h8
  | store h1 h2 h3 h4 h5 h6 h7 h8 h9 => exact .store h1 h2 h3 h4 h5 h6 h7 h8 h9
  | foreign h1 h2 => exact .foreign h1 h2
  | deref h1 h2 h3 h4 h5 h6 h7 => exact .deref h1 h2 h3 h4 h5 h6 h7
  | derefVar h1 h2 h3 h4 h5 h6 h7 h8 => exact .derefVar h1 h2 h3 h4 h5 h6 h7 h8
  | call h1 h2 h3 h4 h5 h6 => exact .call h1 h2 h3 h4 (callee_declared h5) h6
  | external h1 h2 h3 h4 h5 h6 h7 => exact .external h1 h2 h3 h4 (callee_declared h5) h6 h7
  | spawn h1 h2 => exact .spawn h1 h2
  | returned h1 h2 h3 h4 h5 h6 h7 => exact .returned h1 h2 h3 h4 h5 h6 h7
  | deferred h1 h2 h3 h4 h5 => exact .deferred h1 h2 h3 h4 h5
  | forget h => exact .forget h

theorem returned_declared {p : P} {f : FnId} {arg : GoString} {o : Obj} (h : Returned env X exec p f arg o) :
    Returned env (filled X D) exec p f arg o := by
  obtain ⟨s, F, s', hr, hs, h⟩ := h
  refine ⟨s, F, s', ?_, step_declared hs, h⟩
  clear hs
  induction hr with
  | start => exact .start
  | step _ h ih => exact .step ih (step_declared h)

end

/-! ## Programs of several packages -/

variable {U : Linked.Universe} {ms : List Member} {calls : Member → ConvSpec.CallKind} {X : Member → Extra}

/-- What the machine returns is described by `Linked.Returns`. -/
theorem returned_returns {m : Member} {f : FnId} {arg : GoString} {o : Obj}
    (h : Returned Linked.comparing X (Linked.Executes U ms calls) m f arg o) : ∃ n, Linked.Returns U ms calls X n m f arg o := by
  have fin : ∀ {k : Member} {g : FnId} {t : GoString} {o : Obj},
      Yields (Linked.comparing k) (filled X (fun _ q a o => ∃ n k g, Linked.Executes U ms calls q k g ∧ Linked.Returns U ms calls X n k g a o) k)
        (.ret g t) o → ∃ n, Linked.Returns U ms calls X n k g t o := by
    intro k g t o h
    obtain ⟨n, h⟩ := yields_finite (D := fun n q a o => ∃ k g, Linked.Executes U ms calls q k g ∧ Linked.Returns U ms calls X n k g a o) h
    exact ⟨n + 1, h⟩
  refine fin (returned_yields (fun p q k g t o he hy => ?_)
    (returned_declared (D := fun _ q a o => ∃ n k g, Linked.Executes U ms calls q k g ∧ Linked.Returns U ms calls X n k g a o) h))
  obtain ⟨n, hn⟩ := fin hy
  exact ⟨n, k, g, he, hn⟩

end Serum.Machine
