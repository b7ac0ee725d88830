import Verif.Props.Conversions

/-!
# What the recorded facts have to do with conversions

Where Go converts values does not depend on facts, and whether the analyzer treats a conversion correctly depends only on which
interfaces are recorded.
-/

namespace Serum.ConvSpec
open Conv (Info)

/-- The environment with other facts, and other functions (by name). -/
def withFacts (env : Env) (F : Facts) (fn : GoString → Option FnId := env.functions) : Env := { env with facts := F, functions := fn }

variable {env : Env} {info : Info} {calls : CallKind}

theorem converts_facts {F : Facts} {fn : GoString → Option FnId} {w : Option FuncType} {n : Node} {T S : GoType} {e : NodeId}
    (h : Converts env info calls w n T S e) : Converts (withFacts env F fn) info calls w n T S e := by
  cases h with
  | assign h1 h2 h3 => exact .assign (env := withFacts env F fn) h1 h2 h3
  | assignMany h1 h2 h3 h4 => exact .assignMany (env := withFacts env F fn) h1 h2 h3 h4
  | var h1 h2 => exact .var (env := withFacts env F fn) h1 h2
  | varMany h1 h2 h3 h4 => exact .varMany (env := withFacts env F fn) h1 h2 h3 h4
  | argument h1 h2 h3 h4 h5 h6 => exact .argument (env := withFacts env F fn) h1 h2 h3 h4 h5 h6
  | variadicArgument h1 h2 h3 h4 h5 h6 h7 h8 => exact .variadicArgument (env := withFacts env F fn) h1 h2 h3 h4 h5 h6 h7 h8
  | spreadArgument h1 h2 h3 h4 h5 h6 => exact .spreadArgument (env := withFacts env F fn) h1 h2 h3 h4 h5 h6
  | forwardedArgument h1 h2 h3 h4 h5 h6 => exact .forwardedArgument (env := withFacts env F fn) h1 h2 h3 h4 h5 h6
  | forwardedVariadic h1 h2 h3 h4 h5 h6 h7 h8 => exact .forwardedVariadic (env := withFacts env F fn) h1 h2 h3 h4 h5 h6 h7 h8
  | conversion h1 => exact .conversion (env := withFacts env F fn) h1
  | assertion h1 h2 => exact .assertion (env := withFacts env F fn) h1 h2
  | typeCase h1 h2 h3 h4 => exact .typeCase (env := withFacts env F fn) h1 h2 h3 h4
  | mapIndex h1 => exact .mapIndex (env := withFacts env F fn) h1
  | keyedField h1 h2 h3 h4 => exact .keyedField (env := withFacts env F fn) h1 h2 h3 h4
  | field h1 h2 h3 h4 => exact .field (env := withFacts env F fn) h1 h2 h3 h4
  | element h1 h2 h3 => exact .element (env := withFacts env F fn) h1 h2 h3
  | mapKey h1 h2 => exact .mapKey (env := withFacts env F fn) h1 h2
  | result h1 h2 h3 h4 h5 => exact .result (env := withFacts env F fn) h1 h2 h3 h4 h5
  | resultMany h1 h2 h3 h4 h5 h6 => exact .resultMany (env := withFacts env F fn) h1 h2 h3 h4 h5 h6
  | rangeKey h1 => exact .rangeKey (env := withFacts env F fn) h1
  | rangeValue h1 => exact .rangeValue (env := withFacts env F fn) h1
  | send h1 => exact .send (env := withFacts env F fn) h1

theorem noErrorInterface_facts {F : Facts} {fn : GoString → Option FnId} (h : ∀ o, F.interface o = none ↔ env.facts.interface o = none) {T : GoType}
    (hn : NoErrorInterface env T) : NoErrorInterface (withFacts env F fn) T := by
  rintro ms ⟨o, h1, h2⟩
  cases he : env.facts.interface o with
  | none => exact nomatch ((h o).2 he).symm.trans h2
  | some ms' => exact hn ms' ⟨o, h1, he⟩

theorem wellTyped_facts {F : Facts} {fn : GoString → Option FnId} (h : ∀ o, F.interface o = none ↔ env.facts.interface o = none) {w : Option FuncType} {n : Node}
    (hw : WellTyped env info calls w n) : WellTyped (withFacts env F fn) info calls w n := by
  have hn : ∀ {T}, NoErrorInterface env T → NoErrorInterface (withFacts env F fn) T := noErrorInterface_facts h
  cases n with
  | call id fn args =>
    rcases hw with hw | hw | ⟨h1, s, h2, h3, h4⟩
    · exact .inl hw
    · exact .inr (.inl hw)
    · exact .inr (.inr ⟨h1, s, h2, fun hv => by obtain ⟨p, k1, k2⟩ := h3 hv; exact ⟨p, k1, hn k2⟩, h4⟩)
  | typeAssert id x type =>
    cases type with
    | none => trivial
    | some type =>
      intro o h1 ms h2
      cases he : env.facts.interface o with
      | none => exact nomatch ((h o).2 he).symm.trans h2
      | some ms' => exact hw o h1 ms' he
  | range id key value x body =>
    refine ⟨fun k hk => ?_, fun v hv => ?_⟩
    · exact (hw.1 k hk).imp hn fun k => k
    · exact ⟨(hw.2 v hv).1, (hw.2 v hv).2.imp hn fun k => k⟩
  | _ => exact hw

theorem supported_facts {F : Facts} {fn : GoString → Option FnId} (h : ∀ o, F.interface o = none ↔ env.facts.interface o = none) {w : Option FuncType} {n : Node}
    (hw : Supported env info calls w n) : Supported (withFacts env F fn) info calls w n := by
  have hn : ∀ {T}, NoErrorInterface env T → NoErrorInterface (withFacts env F fn) T := noErrorInterface_facts h
  cases n with
  | call id fn args =>
    refine ⟨hw.1, fun h1 s h2 => ⟨(hw.2 h1 s h2).1, (hw.2 h1 s h2).2.imp (fun k p hp => ⟨hn (k p hp).1, fun e he => hn ((k p hp).2 e he)⟩) fun k => k⟩⟩
  | typeAssert id x type =>
    cases type with
    | none => trivial
    | some type => exact fun t ht => hn (hw t ht)
  | typeSwitch id init assign cases => exact fun cid types body hc e he t ht => hn (hw cid types body hc e he t ht)
  | ret id results => exact fun ft fields h1 h2 h3 => (hw ft fields h1 h2 h3).imp (fun k t ht => hn (k t ht)) fun k => k
  | range id key value x body => exact fun v hv => (hw v hv).imp hn fun k => k
  | _ => exact hw

end Serum.ConvSpec

namespace Serum.Props.Conversions
open Serum Serum.Conv Serum.ConvSpec

variable {env : Env} {info : Info} {calls : CallKind} {decls : List TopDecl} {F : Facts} {fn : GoString → Option FnId}

theorem convertedTo_facts {T S : GoType} {e : NodeId} (h : ConvertedTo env info calls decls T S e) :
    ConvertedTo (withFacts env F fn) info calls decls T S e := by
  obtain ⟨n, w, h1, h2⟩ := h
  exact ⟨n, w, h1, converts_facts h2⟩

theorem fine_facts (h : ∀ o, F.interface o = none ↔ env.facts.interface o = none) (hf : Fine env info calls decls) :
    Fine (withFacts env F fn) info calls decls :=
  fun n w hn => ⟨wellTyped_facts h (hf n w hn).1, supported_facts h (hf n w hn).2⟩

theorem methodOf_facts {S : GoType} {m : GoString} {o : Object} (h : MethodOf env S m o) : MethodOf (withFacts env F fn) S m o := by
  cases h with
  | direct h => exact .direct h
  | pointer h1 h2 h3 => exact .pointer h1 h2 h3

end Serum.Props.Conversions
