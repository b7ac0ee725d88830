import Verif.RunLemmas
import Verif.Props.ErrorTypes

/-! # A run ends -/

namespace Serum

theorem tag_fuelled {env : Env} {d : Decls} {td : TypeDecls} {fuel : Nat} (enough : Analyse.bound env ≤ fuel) :
    ∀ (specs : List TypeSpec) (facts : Facts), findAndTagErrorTypes env d td fuel specs facts ≠ .error .outOfFuel
  | [], facts => by intro h; cases h
  | spec :: specs, facts => by
    intro h
    unfold findAndTagErrorTypes at h
    split at h
    · exact tag_fuelled enough specs facts h
    · simp only [bind, Except.bind] at h
      split at h
      · rename_i err _ e he
        cases h
        exact Props.ErrorTypes.tagging_terminates env d td spec _ fuel enough he
      · split at h
        · rename_i e he
          cases h
          exact tag_fuelled enough specs _ he
        · cases h

theorem claims_mem {env : Env} {d : Decls} {strict : Bool} {fs : List FnId} {x : FnId × FuncCodes}
    (h : x ∈ (findClaimedErrorCodes env d strict fs).1) : x.1 ∈ fs :=
  ((Props.Claims.claims_exact env d strict fs x.1 x.2).1 h).1

theorem returnsError_fuelled {env : Env} {t : FuncType} : checkFunctionReturnsError env t ≠ .error .outOfFuel := by
  intro h
  unfold checkFunctionReturnsError at h
  repeat' split at h
  all_goals cases h

theorem returning_fuelled {env : Env} : ∀ fs : List FnId, findErrorReturningFunctions env fs ≠ .error .outOfFuel
  | [] => by intro h; cases h
  | f :: fs => by
    intro h
    unfold findErrorReturningFunctions at h
    simp only [bind, Except.bind] at h
    split at h
    · rename_i e he; cases h; exact returnsError_fuelled he
    · split at h
      · rename_i e he; cases h; exact returning_fuelled fs he
      · cases h

namespace Interfaces

theorem methodDeclares_fuelled {env : Env} {info : Info} {typ : GoType} {m : IfaceMethod} :
    methodDeclares env info typ m ≠ .error .outOfFuel := by
  intro h
  unfold methodDeclares at h
  simp only [bind, Except.bind, pure, Except.pure] at h
  split at h
  · rename_i e he; cases h; exact returnsError_fuelled he
  · repeat' split at h
    all_goals cases h

theorem elements_fuelled {env : Env} {info : Info} {typ : GoType} : ∀ (es : List IfaceElement) (acc : ErrorIface),
    elements env info typ es acc ≠ .error .outOfFuel
  | [], acc => by intro h; cases h
  | .embedded e :: es, acc => by
    unfold elements; exact elements_fuelled es _
  | .method m :: es, acc => by
    intro h
    unfold elements at h
    simp only [bind, Except.bind] at h
    split at h
    · rename_i e he; cases h; exact methodDeclares_fuelled he
    · split at h
      · rename_i e he; cases h; exact elements_fuelled es _ he
      · cases h

theorem collect_fuelled {env : Env} {info : Info} : ∀ (ds : List IfaceDecl) (st : St), collect env info ds st ≠ .error .outOfFuel
  | [], st => by intro h; cases h
  | d :: ds, st => by
    intro h
    unfold collect at h
    simp only [bind, Except.bind] at h
    split at h
    · rename_i e he; cases h; exact elements_fuelled _ _ he
    · exact collect_fuelled ds _ h

theorem find_fuelled {env : Env} {info : Info} {names : Table ErrorIface → List GoString} {decls : List IfaceDecl} :
    find env info decls.length names decls ≠ .error .outOfFuel := by
  intro h
  cases hc : collect env info decls ⟨[], [], []⟩ with
  | error e =>
    simp only [find, hc, bind, Except.bind] at h
    cases h
    exact collect_fuelled _ _ hc
  | ok st =>
    obtain ⟨is, ds, h'⟩ := Props.Interfaces.search_ends (names := names) hc
    rw [h'] at h; cases h

end Interfaces

namespace Conv
variable {D : Type} {env : Env} {o : Orders} {plan : FnId → Plan FnId D} {U : List FnId} {fuel : Nat}

theorem searchMethod_mem {t : GoType} {m : GoString} {f : FnId} (h : env.searchMethod t m = some f) : f ∈ env.methods m := by
  unfold Env.searchMethod at h
  split at h
  · cases h
  · split at h
    · cases h
    · exact List.mem_of_find?_eq_some h

theorem checkMethods_fuelled (hU : Props.CallGraph.ClosedIn plan U) (hm : ∀ m, ∀ f ∈ env.methods m, f ∈ U) (hf : U.length < fuel)
    {c : Check} : ∀ (ms : List (GoString × CodeSet)) (st : Search FnId D), checkMethods env o plan fuel c ms st ≠ .error .outOfFuel
  | [], st => by intro h; cases h
  | (m, allowed) :: ms, st => by
    intro h
    unfold checkMethods at h
    simp only [bind, Except.bind] at h
    split at h
    · rename_i e he
      cases h
      unfold methodCodes at he
      split at he
      · cases he
      · split at he
        · cases he
        · split at he
          · cases he
          · rename_i f hs
            have := Search.findCached_fuelled hU (st := st) (hm m f (searchMethod_mem hs)) hf
            rw [he] at this
            exact this rfl
    · split at h
      · rename_i e he; cases h; exact checkMethods_fuelled hU hm hf ms _ he
      · cases h

theorem runSteps_fuelled (hU : Props.CallGraph.ClosedIn plan U) (hm : ∀ m, ∀ f ∈ env.methods m, f ∈ U) (hf : U.length < fuel) :
    ∀ (ss : List Step) (st : Search FnId D), runSteps env o plan fuel ss st ≠ .error .outOfFuel
  | [], st => by intro h; cases h
  | .panic loc :: _, st => by intro h; cases h
  | .check c :: ss, st => by
    intro h
    unfold runSteps at h
    simp only [bind, Except.bind] at h
    split at h
    · rename_i e he
      cases h
      unfold runCheck at he
      split at he
      · cases he
      · split at he
        · cases he
        · exact checkMethods_fuelled hU hm hf _ _ he
    · split at h
      · rename_i e he; cases h; exact runSteps_fuelled hU hm hf ss _ he
      · cases h

end Conv

theorem run_fuelled (P : Package) (S : Schedule) (hS : S.Fair) (strict : Bool) : runVerify P S strict ≠ .error .outOfFuel := by
  intro h
  simp only [runVerify, bind, Except.bind, pure, Except.pure] at h
  split at h
  · rename_i e he
    cases h
    exact tag_fuelled (Nat.le_refl _) _ _ he
  rename_i r1 h1
  obtain ⟨tagged, tags⟩ := r1
  simp only at h
  split at h
  · rename_i e he
    cases h
    exact Interfaces.find_fuelled he
  rename_i r2 h2
  obtain ⟨ifaces, ifaceDiags⟩ := r2
  simp only at h
  split at h
  · rename_i e he
    cases h
    exact returning_fuelled _ he
  rename_i r3 h3
  obtain ⟨funcs, signatures⟩ := r3
  simp only at h
  split at h
  · rename_i e he
    cases h
    refine Search.findAll_fuelled (Package.closed P _) (Nat.lt_succ_self _) _ _ ?_ he
    intro f hf
    obtain ⟨x, hx, rfl⟩ := List.mem_map.1 hf
    have := claims_mem ((hS.claims _).mem_iff.1 hx)
    have := ((Props.Claims.analysed_exact _ _ _ _ h3 _).1 this).1
    exact Package.funcs_sub (Package.collected_sub ((hS.functions _).mem_iff.1 this))
  rename_i r4 h4
  obtain ⟨found, st⟩ := r4
  simp only at h
  split at h
  · rename_i e he
    cases h
    refine Conv.runSteps_fuelled (Package.closed P _) ?_ ?_ _ _ he
    · intro m f hf; exact Package.funcs_sub (Package.methods_sub hf)
    · omega
  · cases h

end Serum
