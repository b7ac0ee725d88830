import Verif.RenameTypes
import Verif.RenameSearch
import Verif.RenameWalk
import Verif.RunObjs
import Verif.Props.RunExample
import Verif.Props.Rearrange

/-!
# C59, C60 — names of variables, and statements that neither return nor assign anything, do not matter
-/

namespace Serum.Props.Renaming
open Serum.Rename

variable {P : Package} {ρ : Serum.Renaming} {S : Schedule} {strict : Bool}

section
variable {env : Env} (hρ : ρ.Valid)

theorem returning_rename (l : List FnId) : findErrorReturningFunctions (env.rename ρ) l = findErrorReturningFunctions env l := by
  induction l with
  | nil => rfl
  | cons f l ih =>
    have h : checkFunctionReturnsError (env.rename ρ) ((env.rename ρ).func f).type = checkFunctionReturnsError env (env.func f).type := by
      have hm : ∀ gs, misplacedErrors (env.rename ρ) (gs.map (Field.rename ρ)) = misplacedErrors env gs := by
        intro gs
        unfold misplacedErrors
        rw [List.filterMap_map]
        rfl
      rw [func_rename]
      unfold checkFunctionReturnsError
      have : ((env.func f).rename ρ).type.results = (env.func f).type.results.map (List.map (Field.rename ρ)) := rfl
      rw [this]
      cases (env.func f).type.results with
      | none => rfl
      | some gs =>
        simp only [Option.map_some, List.getLast?_map, hm]
        cases gs.getLast? <;> rfl
    unfold findErrorReturningFunctions
    rw [h, ih]

theorem paramName_rename (name : GoString) : ∀ (is : List Ident) (n : Nat), (∀ i ∈ is, i.name = name ∨ (ρ.ident i).name = name → ρ.ident i = i) →
    findParamName name n (is.map ρ.ident) = findParamName name n is
  | [], _, _ => rfl
  | i :: is, n, h => by
    have ih := paramName_rename name is (n + 1) fun j hj => h j (List.mem_cons_of_mem _ hj)
    have hi := h i (List.mem_cons_self ..)
    simp only [List.map_cons, findParamName, ih]
    by_cases hn : i.name = name
    · rw [hi (.inl hn)]
    · by_cases hn' : (ρ.ident i).name = name
      · rw [hi (.inr hn')]
      · rw [if_pos hn, if_pos hn']

theorem paramIn_rename (name : GoString) : ∀ (gs : List Field) (n : Nat),
    (∀ g ∈ gs, ∀ i ∈ g.names, i.name = name ∨ (ρ.ident i).name = name → ρ.ident i = i) → findParamIn name n (gs.map (Field.rename ρ)) = findParamIn name n gs
  | [], _, _ => rfl
  | g :: gs, n, h => by
    have h1 : findParamName name n (g.rename ρ).names = findParamName name n g.names := paramName_rename name _ _ (h g (List.mem_cons_self ..))
    simp only [List.map_cons, findParamIn, h1]
    cases findParamName name n g.names with
    | inl k => exact paramIn_rename name gs k fun g hg => h g (List.mem_cons_of_mem _ hg)
    | inr p => rfl

theorem claims_rename {d : Decls} (hk : ∀ f r, findErrorDocs (d.doc f) = .ok r → r.param ≠ [] → ∀ g ∈ (env.func f).type.params, ∀ i ∈ g.names,
    i.name = r.param ∨ (ρ.ident i).name = r.param → ρ.ident i = i) (l : List FnId) :
    findClaimedErrorCodes (env.rename ρ) d strict l = findClaimedErrorCodes env d strict l := by
  induction l with
  | nil => rfl
  | cons f l ih =>
    have h : claimOf (env.rename ρ) d strict f = claimOf env d strict f := by
      unfold claimOf
      cases hd : findErrorDocs (d.doc f) with
      | error e => rfl
      | ok r =>
        have : findErrorCodeParamIdent (env.rename ρ) ((env.rename ρ).func f).type (d.pos f) r.param =
            findErrorCodeParamIdent env (env.func f).type (d.pos f) r.param := by
          rw [func_rename]
          unfold findErrorCodeParamIdent
          split
          · rfl
          · rename_i hp
            have := paramIn_rename r.param (env.func f).type.params 0 (hk f r hd hp)
            have hx : ((env.func f).rename ρ).type.params = (env.func f).type.params.map (Field.rename ρ) := rfl
            rw [hx, this]
            rfl
        simp only [this]
        rfl
    unfold findClaimedErrorCodes
    rw [h, ih]

end

theorem bind_eq {α β γ : Type} {s : β → γ → Prop} {x : Except Stop α} {f : α → Except Stop β} {g : α → Except Stop γ}
    (k : ∀ a, x = .ok a → ERel s (f a) (g a)) : ERel s (x >>= f) (x >>= g) := by
  cases x with
  | error e => exact .error
  | ok a => exact k a rfl

/-- The facts known when conversions are looked at are those about interfaces recorded by the run. -/
def Late (P : Package) (S : Schedule) (facts : Facts) : Prop :=
  ∃ facts₁ tags is ds, findAndTagErrorTypes P.start P.decls P.types P.depth P.specs P.env.facts = .ok (facts₁, tags) ∧
    Interfaces.find (P.at_ facts₁) (P.ifaceInfo S) P.ifaces.length S.ifaceNames P.ifaces = .ok (is, ds) ∧
    facts.interface = (Interfaces.exportFacts (P.ifaceInfo S) (S.ifaceExport is) facts₁).interface

theorem edited (hρ : ρ.Valid) (hk : ρ.KeepsCodeParams P) (S : Schedule) (strict : Bool)
    (hc : ∀ facts, Late P S facts → ∀ n, ρ.drop n = true → ∀ m, Within (fun _ => true) m n → ∀ w, Conv.atNode (P.at_ facts) P.conv w m = []) :
    (∃ e, runVerify P S strict = .error e ∧ runVerify (P.rename ρ) S strict = .error e) ∨
    ∃ out out', runVerify P S strict = .ok out ∧ runVerify (P.rename ρ) S strict = .ok out' ∧ ρ.SameOutcome out out' := by
  have e : ∀ facts, (P.rename ρ).at_ facts = (P.at_ facts).rename ρ := fun _ => rfl
  have hdep : (P.rename ρ).depth = P.depth := congrArg (· + 4) (List.length_map ..)
  have hplan : ∀ facts f, PlanRel ρ (P.plan facts f) ((P.rename ρ).plan facts f) := by
    intro facts f
    unfold Package.plan
    rw [hdep, e]
    exact plan_rename hρ _ f
  have hfun : ∀ facts, (P.rename ρ).functions facts = P.functions facts := by
    intro facts
    have hs : (P.rename ρ).env.funcs.length = P.env.funcs.length := List.length_map ..
    have ht : (fun f => ((P.rename ρ).plan facts f).targets) = fun f => (P.plan facts f).targets := funext fun f => targets_rel (hplan facts f)
    unfold Package.functions
    rw [ht, hs]
    rfl
  have htag : ERel (TaggedRel ρ) (findAndTagErrorTypes P.start P.decls P.types P.depth P.specs P.env.facts)
      (findAndTagErrorTypes (P.rename ρ).start (P.rename ρ).decls (P.rename ρ).types (P.rename ρ).depth (P.rename ρ).specs (P.rename ρ).env.facts) := by
    rw [hdep]
    exact tagging_rename hρ P.decls P.types P.depth P.specs P.env.facts
  have hret : ∀ facts l, findErrorReturningFunctions ((P.rename ρ).at_ facts) l = findErrorReturningFunctions (P.at_ facts) l :=
    fun facts l => returning_rename (env := P.at_ facts) (ρ := ρ) l
  have hcl : ∀ facts l, findClaimedErrorCodes ((P.rename ρ).at_ facts) P.decls strict l = findClaimedErrorCodes (P.at_ facts) P.decls strict l :=
    fun facts l => claims_rename (env := P.at_ facts) hk l
  have hst : ∀ facts, Late P S facts → Conv.steps ((P.rename ρ).at_ facts) P.conv (P.rename ρ).top = Conv.steps (P.at_ facts) P.conv P.top :=
    fun facts hl => steps_rename (env := P.at_ facts) hρ (hc facts hl) P.top
  have hif : ∀ facts, Interfaces.find ((P.rename ρ).at_ facts) = Interfaces.find (P.at_ facts) := by
    intro facts
    set_option smartUnfolding false in rfl
  have key : ERel ρ.SameOutcome (runVerify P S strict) (runVerify (P.rename ρ) S strict) := by
    unfold runVerify
    cases h₁ : findAndTagErrorTypes P.start P.decls P.types P.depth P.specs P.env.facts with
    | error e =>
      rw [h₁] at htag
      cases htag' : findAndTagErrorTypes (P.rename ρ).start (P.rename ρ).decls (P.rename ρ).types (P.rename ρ).depth (P.rename ρ).specs
          (P.rename ρ).env.facts <;> rw [htag'] at htag <;> cases htag
      exact .error
    | ok a =>
    cases htag' : findAndTagErrorTypes (P.rename ρ).start (P.rename ρ).decls (P.rename ρ).types (P.rename ρ).depth (P.rename ρ).specs
        (P.rename ρ).env.facts with
    | error e => rw [h₁, htag'] at htag; cases htag
    | ok b =>
    rw [h₁, htag'] at htag
    obtain ⟨facts, tags⟩ := a
    obtain ⟨facts', tags'⟩ := b
    cases htag with | ok hab =>
    obtain ⟨rfl, htags⟩ := hab
    show ERel ρ.SameOutcome _ (do
      let (ifaces, ifaceDiags) ← Interfaces.find ((P.rename ρ).at_ facts') (P.ifaceInfo S) P.ifaces.length S.ifaceNames P.ifaces
      let facts := Interfaces.exportFacts (P.ifaceInfo S) (S.ifaceExport ifaces) facts'
      let (funcs, signatures) ← findErrorReturningFunctions ((P.rename ρ).at_ facts) (S.functions P.collected)
      let (claims, claimDiags) := findClaimedErrorCodes ((P.rename ρ).at_ facts) P.decls strict funcs
      let facts := exportErrorConstructorFacts P.start (S.ctorExport claims) facts
      let order := S.claims claims
      let depth := ((P.rename ρ).functions facts).length + 1
      let (found, st) ← Search.findAll ((P.rename ρ).plan facts) depth (order.map Prod.fst) Search.start
      let facts' := exportErrorCodeFacts P.start (S.codesExport claims) facts
      let (reports, st) ← Conv.runSteps ((P.rename ρ).at_ facts') S.conv ((P.rename ρ).plan facts') (depth + ((P.rename ρ).functions facts').length)
        (Conv.steps ((P.rename ρ).at_ facts') P.conv (P.rename ρ).top) st
      pure (⟨facts', tags', ifaceDiags, signatures, claimDiags, st.diags, mismatches S.claimMatch order found, reports⟩ : Outcome))
    show ERel ρ.SameOutcome (do
      let (ifaces, ifaceDiags) ← Interfaces.find (P.at_ facts') (P.ifaceInfo S) P.ifaces.length S.ifaceNames P.ifaces
      let facts := Interfaces.exportFacts (P.ifaceInfo S) (S.ifaceExport ifaces) facts'
      let (funcs, signatures) ← findErrorReturningFunctions (P.at_ facts) (S.functions P.collected)
      let (claims, claimDiags) := findClaimedErrorCodes (P.at_ facts) P.decls strict funcs
      let facts := exportErrorConstructorFacts P.start (S.ctorExport claims) facts
      let order := S.claims claims
      let depth := (P.functions facts).length + 1
      let (found, st) ← Search.findAll (P.plan facts) depth (order.map Prod.fst) Search.start
      let facts' := exportErrorCodeFacts P.start (S.codesExport claims) facts
      let (reports, st) ← Conv.runSteps (P.at_ facts') S.conv (P.plan facts') (depth + (P.functions facts').length)
        (Conv.steps (P.at_ facts') P.conv P.top) st
      pure (⟨facts', tags, ifaceDiags, signatures, claimDiags, st.diags, mismatches S.claimMatch order found, reports⟩ : Outcome)) _
    simp only [hfun, hret, hcl, hif]
    refine bind_eq fun a h₂ => ?_
    obtain ⟨is, ids⟩ := a
    refine (ERel.of_eq rfl).bind fun a b' hab => ?_
    subst hab
    rw [hst _ ⟨_, _, _, _, h₁, h₂, by rw [exportCodes_interface, exportCtor_rest.2.1]⟩]
    refine (findAll_rel (hplan _) _ _ ⟨rfl, rfl, rfl, .nil⟩).bind fun c d hcd => ?_
    obtain ⟨found, st⟩ := c
    obtain ⟨found', st'⟩ := d
    obtain ⟨rfl, hs⟩ := hcd
    refine (runSteps_rel (hplan _) _ _ _ hs).bind fun c d hcd => ?_
    obtain ⟨reports, st⟩ := c
    obtain ⟨reports', st'⟩ := d
    obtain ⟨rfl, hs⟩ := hcd
    exact .ok ⟨rfl, htags, rfl, rfl, rfl, hs.diags, rfl, rfl⟩
  generalize runVerify P S strict = x at key
  generalize runVerify (P.rename ρ) S strict = y at key
  cases key with
  | ok h => exact .inr ⟨_, _, rfl, rfl, h⟩
  | error => exact .inl ⟨_, rfl, rfl⟩

/-- **C59.** The package with variables renamed is treated in the same way: the analyzer stops with the same panic, or it exports the same
facts and reports the same problems at the same places in the same order; only the names of variables in their texts may differ. -/
theorem renamed (hρ : ρ.Valid) (hk : ρ.KeepsCodeParams P) (hd : ∀ n, ρ.drop n = false) (S : Schedule) (strict : Bool) :
    (∃ e, runVerify P S strict = .error e ∧ runVerify (P.rename ρ) S strict = .error e) ∨
    ∃ out out', runVerify P S strict = .ok out ∧ runVerify (P.rename ρ) S strict = .ok out' ∧ ρ.SameOutcome out out' :=
  edited hρ hk S strict fun _ _ n h => by rw [hd n] at h; cases h

/-- **C60.** The package without some statements which contain neither assignments nor return statements nor function literals, and which
convert nothing to interfaces with error methods (and with variables renamed) is treated in the same way. -/
theorem left_out (hρ : ρ.Valid) (hk : ρ.KeepsCodeParams P) {calls : ConvSpec.CallKind} (hc : ρ.ConvertsNothing P calls)
    {S : Schedule} (hS : S.Fair) (strict : Bool) :
    (∃ e, runVerify P S strict = .error e ∧ runVerify (P.rename ρ) S strict = .error e) ∨
    ∃ out out', runVerify P S strict = .ok out ∧ runVerify (P.rename ρ) S strict = .ok out' ∧ ρ.SameOutcome out out' := by
  refine edited hρ hk S strict fun facts hl n hn m hm w => ?_
  obtain ⟨facts₁, tags, is, ds, h₁, h₂, h₃⟩ := hl
  have hp : P.Possible facts := by
    intro o ho
    by_cases hd : ∃ d ∈ P.ifaces, d.obj = o
    · exact .inr hd
    · left
      rwa [h₃, Interfaces.exportFacts_interface_other, (tag_facts h₁).2.2] at ho
      intro e he heo
      obtain ⟨d, hd', hde⟩ := Interfaces.find_objs h₂ e ((hS.ifaceExport is).mem_iff.1 he)
      exact hd ⟨d, hd', hde.trans heo⟩
  obtain ⟨hw, hs, hno⟩ := hc facts hp n hn m hm w
  have hx := Conversions.positions_exact_partial hw hs
  cases hl : Conv.atNode (P.at_ facts) P.conv w m with
  | nil => rfl
  | cons st l =>
    have hmem : st ∈ Conv.atNode (P.at_ facts) P.conv w m := by rw [hl]; exact List.mem_cons_self ..
    cases st with
    | panic loc => exact absurd hmem (hx.1 loc)
    | check c =>
      obtain ⟨⟨o, ho, hi⟩, hconv⟩ := (hx.2 c.methods c.target c.source c.at_).1 hmem
      exact absurd (hp o (by rw [show facts.interface o = _ from hi]; exact Option.some_ne_none _)) (hno _ _ _ o hconv ho)

/-- Names have different lengths: everything behind a name moves.  This does not matter either (C53). -/
theorem renamed_moved (hρ : ρ.Valid) (hk : ρ.KeepsCodeParams P) (hd : ∀ n, ρ.drop n = false) {fs : List FuncDef} {os : List ObjInfo} (hM : (P.rename ρ).env.Moves fs os)
    (S : Schedule) (strict : Bool) :
    (∃ e, runVerify P S strict = .error e ∧ runVerify ((P.rename ρ).moved fs os) S strict = .error e) ∨
    ∃ out out', runVerify P S strict = .ok out ∧ runVerify ((P.rename ρ).moved fs os) S strict = .ok out' ∧ ρ.SameOutcome out out' := by
  rw [Rearrange.positions hM]
  exact renamed hρ hk hd S strict

/-! ## An example -/

/-- In the example of `Props/RunExample.lean`: the variable `err` of `F` is called `problem`, the receiver of `Code` is called `self`. -/
def others : Serum.Renaming where
  new := fun x => if x = 0 then some b!"problem" else if x = 5 then some b!"self" else none
  key := id
  drop := fun _ => false

theorem others_valid : others.Valid where
  named := by
    intro x n h
    simp only [others] at h
    split at h
    · injection h with h; subst h; decide
    · split at h
      · injection h with h; subst h; decide
      · cases h
  keyId := fun _ => rfl
  keyName := fun _ => rfl
  quiet := fun _ h => by cases h

theorem others_keeps : others.KeepsCodeParams Run.pkg := by
  intro f r _ _ g hg i hi _
  match f with
  | 1 =>
    have hg : g ∈ [(⟨[⟨104, b!"code", some 1⟩], 105⟩ : Field)] := hg
    simp only [List.mem_singleton] at hg
    subst hg
    simp only [List.mem_singleton] at hi
    subst hi
    rfl
  | 0 | 2 | 3 | 4 | n + 5 => cases hg

/-- The names really are different ones, and the whole run is the same. -/
example : Run.pkg.rename others ≠ Run.pkg ∧ ∃ out, runVerify (Run.pkg.rename others) Run.schedule false = .ok out ∧
    others.SameOutcome Run.pkgOut out ∧ out.conversions = [⟨63, some 20, b!"Get", [b!"x-error"]⟩] := by
  refine ⟨fun h => ?_, ?_⟩
  · have h := congrArg (fun P : Package => P.types.recvNames 3) h
    revert h
    decide
  · rcases renamed others_valid others_keeps (fun _ => rfl) Run.schedule false with ⟨e, h, _⟩ | ⟨out, out', h, h', hs⟩
    · rw [Run.pkg_ran] at h; cases h
    · rw [Run.pkg_ran] at h
      injection h with h
      subst h
      exact ⟨out', h', hs, hs.conversions.trans Run.pkg_outcome.2.2.2.2.2.2.1⟩

/-- Both conditions are needed.  The error code parameter of `New` is found by the name in its comment: if it is called otherwise, this
is reported. -/
theorem code_parameter_matters : ∃ out, runVerify (Run.pkg.rename ⟨fun x => if x = 1 then some b!"which" else none, id, fun _ => false⟩) Run.schedule false = .ok out ∧
    out.claims ≠ Run.pkgOut.claims :=
  ⟨_, rfl, by decide⟩

/-- And a variable called `nil` (which Go allows) is taken for the value `nil`: the codes of `err` would be missed. -/
theorem nil_matters : ∃ out, runVerify (Run.pkg.rename ⟨fun x => if x = 0 then some b!"nil" else none, id, fun _ => false⟩) Run.schedule false = .ok out ∧
    Run.pkgOut.mismatches = [] ∧ out.mismatches.length = 1 :=
  ⟨_, rfl, by decide, by decide⟩

/-! ## Leaving out statements: an example -/

/-- `log("called")`, and `use(Impl{})` for a function `use` with a parameter of type `Getter`. -/
def logCall : Node := .other 899 [.call 900 (.ident ⟨901, b!"log", none⟩) [.basicLit 902]]
def useCall : Node := .other 909 [.call 910 (.ident ⟨911, b!"use", none⟩) [.compositeLit 912 []]]

/-- The example, with these statements at the beginning of `F`. -/
def busy : Package :=
  { Run.pkg with
    env := { Run.pkgEnv with
      funcs := Run.pkgEnv.funcs.set 0 { Run.pkgEnv.func 0 with body := some (logCall :: useCall :: Soundness.bodyF) }
      typeOf := fun n => if n = 901 then .signature 3 else if n = 902 then .string else if n = 911 then .signature 4
        else if n = 912 then .named 8 else Run.pkgEnv.typeOf n }
    conv := { Run.pkg.conv with params := fun s => if s = 3 then [.string] else if s = 4 then [.named 20] else Run.pkg.conv.params s } }

/-- Without the call of `log`. -/
def unlogged : Serum.Renaming where
  new := fun _ => none
  key := id
  drop := fun n => match n with
    | .other 899 [.call 900 (.ident i) [.basicLit 902]] => i.id == 901
    | _ => false

theorem unlogged_drops {n : Node} (h : unlogged.drop n = true) : ∃ i : Ident, i.id = 901 ∧ n = .other 899 [.call 900 (.ident i) [.basicLit 902]] := by
  simp only [unlogged] at h
  split at h
  · exact ⟨_, by simpa using h, rfl⟩
  · cases h

theorem unlogged_parts {n m : Node} (h : unlogged.drop n = true) (hm : Within (fun _ => true) m n) : ∃ i : Ident, i.id = 901 ∧
    (m = .other 899 [.call 900 (.ident i) [.basicLit 902]] ∨ m = .call 900 (.ident i) [.basicLit 902] ∨ m = .ident i ∨ m = .basicLit 902) := by
  obtain ⟨i, hi, rfl⟩ := unlogged_drops h
  refine ⟨i, hi, ?_⟩
  have := (mem_inspect _ _ _).2 hm
  simpa [Node.inspect, Node.inspectList] using this

theorem unlogged_valid : unlogged.Valid where
  named := fun _ _ h => by cases h
  keyId := fun _ => rfl
  keyName := fun _ => rfl
  quiet := by
    intro n h m hm
    obtain ⟨i, _, rfl | rfl | rfl | rfl⟩ := unlogged_parts h hm <;> exact trivial

theorem unlogged_keeps : unlogged.KeepsCodeParams busy := by
  intro f r _ _ g _ i _ _
  simp only [Renaming.ident, unlogged, Option.bind_none]
  split
  · rfl
  · cases i.obj <;> rfl

theorem unlogged_converts : unlogged.ConvertsNothing busy Run.pkgCalls := by
  intro facts hp n hn m hm w
  have hstr : ∀ ms, ¬ ConvSpec.IsErrorInterface (busy.at_ facts) .string ms := by rintro ms ⟨o, ho, _⟩; cases ho
  obtain ⟨i, hi, rfl | rfl | rfl | rfl⟩ := unlogged_parts hn hm
  · exact ⟨trivial, trivial, fun T S e o hc _ => by cases hc⟩
  · have ht : (busy.at_ facts).typeOf (Node.ident i).id = .signature 3 := by
      show (if i.id = 901 then _ else _) = _
      rw [if_pos hi]
    have htup : ¬ ConvSpec.IsTuple ((busy.at_ facts).typeOf (Node.basicLit 902).id) := by rintro ⟨k, hk⟩; cases hk
    have hsig : ∀ {s}, ConvSpec.under busy.conv ((busy.at_ facts).typeOf (Node.ident i).id) = .signature s → s = 3 := by
      intro s h
      rw [ht] at h
      injection h with h
      exact h.symm
    refine ⟨.inr (.inr ⟨rfl, 3, ?_, fun h => (by cases h), .inl ⟨by simp, ?_, fun _ => rfl, fun h => (by cases h)⟩⟩), ⟨fun h => (by cases h), ?_⟩, ?_⟩
    · rw [ht]; rfl
    · intro a ha
      rw [List.mem_singleton.1 ha]
      exact htup
    · intro _ s h
      cases hsig h
      refine ⟨ht, .inl fun p hpm => ?_⟩
      have : p = .string := List.mem_singleton.1 hpm
      subst this
      exact ⟨hstr, fun e he => by cases he⟩
    · intro T S e o hc ho
      cases hc with
      | argument _ h2 h3 =>
        cases hsig h2
        have := List.mem_singleton.1 (List.mem_of_getElem? h3)
        subst this
        cases ho
      | variadicArgument _ _ _ h => cases h
      | spreadArgument _ _ _ h => cases h
      | forwardedArgument _ h2 h3 =>
        cases hsig h2
        have := List.mem_singleton.1 (List.mem_of_getElem? h3)
        subst this
        cases ho
      | forwardedVariadic _ _ _ h => cases h
      | conversion h => cases h
  · exact ⟨trivial, trivial, fun T S e o hc _ => by cases hc⟩
  · exact ⟨trivial, trivial, fun T S e o hc _ => by cases hc⟩

/-- The statement really is gone, and the outcome is the same: `F` is still as declared, and `Impl` is still reported twice. -/
example : ((busy.rename unlogged).env.func 0).body = some (useCall :: Soundness.bodyF) ∧
    ∃ out out', runVerify busy Run.schedule false = .ok out ∧ runVerify (busy.rename unlogged) Run.schedule false = .ok out' ∧
      unlogged.SameOutcome out out' ∧ out.mismatches = [] ∧
      out.conversions = [⟨912, some 20, b!"Get", [b!"x-error"]⟩, ⟨63, some 20, b!"Get", [b!"x-error"]⟩] := by
  refine ⟨rfl, ?_⟩
  rcases left_out unlogged_valid unlogged_keeps unlogged_converts Run.schedule_fair false with ⟨e, h, _⟩ | ⟨out, out', h, h', hs⟩
  · cases h
  · refine ⟨out, out', h, h', hs, ?_⟩
    injection h with h
    subst h
    decide

/-- Conversions do matter: without the call of `use`, one of the reports is missing. -/
theorem conversion_matters : ∃ out out', runVerify busy Run.schedule false = .ok out ∧
    runVerify (busy.rename ⟨fun _ => none, id, fun n => n.id == 909⟩) Run.schedule false = .ok out' ∧
    out.conversions.length = 2 ∧ out'.conversions.length = 1 :=
  ⟨_, _, rfl, rfl, by decide, by decide⟩

/-- So do assignments: without `err.TheCode = "b-error"` the code `b-error` is not found any more. -/
theorem assignment_matters : ∃ out, runVerify (Run.pkg.rename ⟨fun _ => none, id, fun n => n.id == Soundness.setCode.id⟩) Run.schedule false = .ok out ∧
    Run.pkgOut.mismatches = [] ∧ out.mismatches.length = 1 :=
  ⟨_, rfl, by decide, by decide⟩

end Serum.Props.Renaming
