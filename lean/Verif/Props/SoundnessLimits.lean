import Verif.Props.Soundness

/-!
# C24: why the conditions of `Supported` are there

For each of them a program that violates it: the run is silent, but the program returns a code that was not
found.  (That the programs behave like this in Go can be seen from the listings; the derivations show that the
semantics of `Spec/Runtime.lean` agrees.)
-/

namespace Serum.Props.Soundness
open Flow Analyse Runtime Props.Calls Props.Extract Props.Claims

/-- A run over function 0 is silent, but the function may return a code which was not found, although functions declared elsewhere keep
their promises. -/
def Unsound (env : Env) (X : Extra) (c : GoString) : Prop :=
  (∃ S st, Search.findAll (plan env (bound env)) 4 [0] Search.start = .ok ([(0, S)], st) ∧ st.diags = [] ∧ c ∉ S) ∧
  c ≠ [] ∧ importErrorConstructorFact env 0 = none ∧ Promises env X ∧ ∃ o, Yields env X (.ret 0 []) o ∧ o.may c

/-- Function 0 is `func F() error`; `Err` (type 7) has the code field `TheCode`, `Const` (type 8) always returns
the code `k-error`.  Expression 3 is `"a-error"`, expression 4 is `"b-error"`. -/
def limitEnv (objects : List ObjInfo) (body : List Node) (typeOf : NodeId → GoType := fun _ => .pointer (.named 7)) : Env :=
  { Tracking.plainEnv objects with
    funcs := [⟨100, some ⟨101, b!"F", none⟩, ⟨[], some [⟨[], 11⟩], 10⟩, some body, 20, 100⟩]
    typeOf := typeOf
    implCode := fun _ => true
    funcObj := fun f => 70 + f
    value := fun n => if n = 3 then some (.str b!"a-error") else if n = 4 then some (.str b!"b-error") else none
    facts := ⟨fun _ => none, fun _ => none,
      fun o => if o = 7 then some errT else if o = 8 then some ⟨[b!"k-error"], none⟩
        else if o = 9 then some ⟨[b!"k-error"], some ⟨b!"TheCode", 0⟩⟩ else none, fun _ => none⟩ }

def noExtra : Extra where
  conversion := fun _ => false
  shift := fun _ => 0
  op := fun _ => false
  codeField := fun _ => none
  deref := fun _ => false
  deferred := fun _ => false
  foreign := fun _ _ => False
  declared := fun _ a o => o = ⟨errT, a⟩

theorem limit_honours {env : Env} {id : NodeId} {o : Obj} (h : env.comments id = []) : Honours env id o := fun a ha => by
  rw [h] at ha
  simp [getReturnStmtAnnotations] at ha

/-- `return err` -/
def retVar : Node := .ret 20 [.ident ⟨21, b!"err", some 0⟩]
/-- the object `err` -/
def errObj : ObjInfo := ⟨.var, 30, .other⟩
/-- `err := &Err{"a-error"}` -/
def initVar : Node := .assign 1 [.ident ⟨2, b!"err", some 0⟩] [.unary 5 true (.compositeLit 6 [.basicLit 3])]

/-- `for _, err := range list { return err }`: loop variables have no codes. -/
theorem range_variable_missed :
    Unsound (limitEnv [errObj] [.range 1 none (some (.ident ⟨2, b!"err", some 0⟩)) (.ident ⟨7, b!"list", none⟩) [retVar]]) noExtra b!"b-error" := by
  refine ⟨⟨_, _, rfl, rfl, by decide⟩, by decide, rfl, by nofun, ⟨errT, b!"b-error"⟩, ?_, .inr ⟨by simp [errT], rfl⟩⟩
  refine .returned (id := 20) rfl ⟨_, List.mem_singleton.2 rfl, .child (c := retVar) rfl (by simp [Node.children]) .self⟩ (.inl rfl)
    (.read rfl rfl (.wild (.inr (.inl ?_)))) (limit_honours rfl)
  exact ⟨1, _, _, _, _, _, _, ⟨_, List.mem_singleton.2 rfl, .self⟩, .inr rfl, rfl, rfl⟩

/-- `var target *Err; if errors.As(e, &target) { return target }` -/
theorem errors_as_missed :
    Unsound (limitEnv [⟨.var, 30, .valueSpec [⟨2, b!"err", some 0⟩] []⟩]
      [.valueSpec 1 [⟨2, b!"err", some 0⟩] none [], .call 8 (.ident ⟨9, b!"As", none⟩) [.unary 10 true (.ident ⟨11, b!"err", some 0⟩)], retVar]
      (fun n => if n = 10 then .pointer (.pointer (.named 7)) else .pointer (.named 7))
      |> fun env => { env with implError := fun t => t == .pointer (.named 7) }) noExtra b!"b-error" := by
  refine ⟨⟨_, _, rfl, rfl, by decide⟩, by decide, rfl, by nofun, ⟨errT, b!"b-error"⟩, ?_, .inr ⟨by simp [errT], rfl⟩⟩
  refine .returned (id := 20) rfl ⟨retVar, by simp, .self⟩ (.inl rfl)
    (.read rfl rfl (.wild (.inr (.inr (.inr (.inl ?_)))))) (limit_honours rfl)
  refine ⟨10, .ident ⟨11, b!"err", some 0⟩, ⟨11, b!"err", some 0⟩, ⟨.call 8 (.ident ⟨9, b!"As", none⟩) [.unary 10 true (.ident ⟨11, b!"err", some 0⟩)], by simp, .child rfl ?_ .self⟩, rfl, rfl, by decide⟩
  simp [Node.children]

/-- `err := &Err{"a-error"}; alias := err; alias.TheCode = "b-error"; return err` -/
theorem aliased_store_missed :
    Unsound (limitEnv [errObj, errObj] [initVar, .assign 7 [.ident ⟨8, b!"alias", some 1⟩] [.ident ⟨9, b!"err", some 0⟩],
      .assign 10 [.selector 11 (.ident ⟨12, b!"alias", some 1⟩) ⟨13, b!"TheCode", none⟩] [.basicLit 4], retVar])
      { noExtra with codeField := fun n => if n = 11 then some errT else none } b!"b-error" := by
  refine ⟨⟨_, _, rfl, rfl, by decide⟩, by decide, rfl, by nofun, ⟨errT, b!"b-error"⟩, ?_, .inr ⟨by simp [errT], rfl⟩⟩
  refine .returned (id := 20) rfl ⟨retVar, by simp, .self⟩ (.inl rfl)
    (.read rfl rfl (.stored (o := ⟨errT, b!"a-error"⟩) (.assigned (e := .unary 5 true (.compositeLit 6 [.basicLit 3]))
      (.inr ⟨1, _, _, ⟨initVar, by simp, .self⟩, rfl, 0, _, _, rfl, rfl, rfl, rfl⟩) (.pointerLiteral rfl rfl rfl ?_))
      (.assigned (id := 10) (k := 0) (sid := 11) ⟨.assign 10 [.selector 11 (.ident ⟨12, b!"alias", some 1⟩) ⟨13, b!"TheCode", none⟩] [.basicLit 4], by simp, .self⟩
        rfl rfl rfl rfl rfl rfl (.constant rfl))))
    (limit_honours rfl)
  intro fd hfd
  cases hfd
  exact .inr (.inl ⟨by simp, _, rfl, .constant rfl⟩)

/-- `err := &Err{"a-error"}; *err = Err{"b-error"}; return err` -/
theorem deref_store_missed :
    Unsound (limitEnv [errObj] [initVar, .assign 7 [.other 8 [.ident ⟨9, b!"err", some 0⟩]] [.compositeLit 10 [.basicLit 4]], retVar])
      { noExtra with deref := fun n => n == 8 } b!"b-error" := by
  refine ⟨⟨_, _, rfl, rfl, by decide⟩, by decide, rfl, by nofun, ⟨errT, b!"b-error"⟩, ?_, .inr ⟨by simp [errT], rfl⟩⟩
  refine .returned (id := 20) rfl ⟨retVar, by simp, .self⟩ (.inl rfl) (.read rfl rfl (.derefs ?_)) (limit_honours rfl)
  exact ⟨7, _, _, _, ⟨.assign 7 [.other 8 [.ident ⟨9, b!"err", some 0⟩]] [.compositeLit 10 [.basicLit 4]], by simp, .self⟩, List.mem_singleton.2 rfl, rfl⟩

/-- `var err Const; return &err`: no codes are found for variables without initial value. -/
theorem zero_value_missed :
    Unsound (limitEnv [⟨.var, 30, .valueSpec [⟨2, b!"err", some 0⟩] []⟩]
      [.valueSpec 1 [⟨2, b!"err", some 0⟩] none [], .ret 20 [.unary 22 true (.ident ⟨21, b!"err", some 0⟩)]] (fun _ => .named 8)) noExtra b!"k-error" := by
  refine ⟨⟨_, _, rfl, rfl, by decide⟩, by decide, rfl, by nofun, ⟨⟨[b!"k-error"], none⟩, []⟩, ?_, .inl (by simp)⟩
  refine .returned (id := 20) rfl ⟨_, List.mem_cons_of_mem _ (List.mem_singleton.2 rfl), .self⟩ (.inl rfl)
    (.address rfl rfl rfl (.zero ⟨.inl ⟨_, rfl⟩, ⟨2, b!"err", some 0⟩, 8, .inl ?_, rfl, rfl, rfl⟩)) (limit_honours rfl)
  exact ⟨.valueSpec 1 [⟨2, b!"err", some 0⟩] none [], by simp, .child rfl (by simp [Node.children]) .self⟩

/-- `e := New(); err, _ := e.(Const); return &err`, where `New` declares no codes: if `e` is no `Const`, then `err` is the zero value. -/
theorem failed_assertion_missed :
    Unsound (limitEnv [errObj, ⟨.var, 40, .other⟩]
      [.assign 1 [.ident ⟨6, b!"e", some 1⟩] [.call 7 (.ident ⟨8, b!"New", none⟩) []],
        .assign 10 [.ident ⟨2, b!"err", some 0⟩, .ident ⟨11, b!"_", none⟩] [.typeAssert 12 (.ident ⟨13, b!"e", some 1⟩) (some 14)],
        .ret 20 [.unary 22 true (.ident ⟨21, b!"err", some 0⟩)]] (fun _ => .named 8)
      |> fun env => { env with callee := fun n => if n = 7 then some 60 else none,
                               facts := { env.facts with codes := fun o => if o = 60 then some [] else none } })
      { noExtra with declared := fun _ _ _ => False } b!"k-error" := by
  refine ⟨⟨_, _, rfl, rfl, by decide⟩, by decide, rfl, by nofun, ⟨⟨[b!"k-error"], none⟩, []⟩, ?_, .inl (by simp)⟩
  refine .returned (id := 20) rfl ⟨_, List.mem_cons_of_mem _ (List.mem_cons_of_mem _ (List.mem_singleton.2 rfl)), .self⟩ (.inl rfl)
    (.address rfl rfl rfl (.zero ⟨.inr (.inr ?_), ⟨2, b!"err", some 0⟩, 8, .inl ?_, rfl, rfl, rfl⟩)) (limit_honours rfl)
  · exact ⟨⟨0, ⟨2, b!"err", some 0⟩, .typeAssert 12 (.ident ⟨13, b!"e", some 1⟩) (some 14)⟩, 12, _, _,
      .inr ⟨10, _, _, ⟨_, List.mem_cons_of_mem _ (List.mem_cons_self ..), .self⟩, by simp, _, rfl, rfl, rfl, rfl⟩, rfl⟩
  · exact ⟨_, List.mem_cons_of_mem _ (List.mem_cons_self ..), .child rfl (by simp [Node.children]) .self⟩

/-- `func F() (err error) { defer func() { err = &Err{"b-error"} }(); return nil }`: the codes of the deferred
function are found only if `err` itself is returned. -/
theorem deferred_missed :
    Unsound (limitEnv [errObj] [.other 40 [.call 41 (.funcLit 42 1 ⟨[], none, 0⟩ [initVar]) []], .ret 20 [.ident ⟨22, b!"nil", none⟩]])
      { noExtra with deferred := fun f => f == 0 } b!"b-error" := by
  refine ⟨⟨_, _, rfl, rfl, by decide⟩, by decide, rfl, by nofun, ⟨errT, b!"b-error"⟩, ?_, .inr ⟨by simp [errT], rfl⟩⟩
  exact .deferred rfl

/-- `type Err9 …` with constant code `k-error` or a code field; `return Err9(value)`: the field's content is
ignored. -/
theorem conversion_missed :
    Unsound (limitEnv [] [.ret 20 [.call 21 (.ident ⟨22, b!"Err9", none⟩) [.ident ⟨23, b!"value", none⟩]]] (fun _ => .named 9))
      { noExtra with conversion := fun n => n == 21 } b!"b-error" := by
  refine ⟨⟨_, _, rfl, rfl, by decide⟩, by decide, rfl, by nofun, ⟨⟨[b!"k-error"], some ⟨b!"TheCode", 0⟩⟩, b!"b-error"⟩, ?_, .inr ⟨by simp, rfl⟩⟩
  exact .returned (id := 20) rfl ⟨_, List.mem_singleton.2 rfl, .self⟩ (.inl rfl) (.called rfl (.conversion rfl rfl)) (limit_honours rfl)

/-- `err := &Err{"a-error"}; err.change(); return err`, where `change` stores another code. -/
theorem foreign_store_missed :
    Unsound (limitEnv [errObj] [initVar, .call 7 (.selector 8 (.ident ⟨9, b!"err", some 0⟩) ⟨10, b!"change", none⟩) [], retVar])
      { noExtra with foreign := fun _ s => s = b!"b-error" } b!"b-error" := by
  refine ⟨⟨_, _, rfl, rfl, by decide⟩, by decide, rfl, by nofun, ⟨errT, b!"b-error"⟩, ?_, .inr ⟨by simp [errT], rfl⟩⟩
  refine .returned (id := 20) rfl ⟨retVar, by simp, .self⟩ (.inl rfl)
    (.read rfl rfl (.stored (o := ⟨errT, b!"a-error"⟩) (.assigned (e := .unary 5 true (.compositeLit 6 [.basicLit 3]))
      (.inr ⟨1, _, _, ⟨initVar, by simp, .self⟩, rfl, 0, _, _, rfl, rfl, rfl, rfl⟩) (.pointerLiteral rfl rfl rfl ?_)) (.foreign rfl)))
    (limit_honours rfl)
  intro fd hfd
  cases hfd
  exact .inr (.inl ⟨by simp, _, rfl, .constant rfl⟩)

/-- `for _, fn := range fns { return fn() }` -/
theorem range_function_missed :
    Unsound (limitEnv [errObj] [.range 1 none (some (.ident ⟨2, b!"fn", some 0⟩)) (.ident ⟨7, b!"fns", none⟩)
      [.ret 20 [.call 21 (.ident ⟨22, b!"fn", some 0⟩) []]]] (fun _ => .other 0)) noExtra b!"b-error" := by
  refine ⟨⟨_, _, rfl, rfl, by decide⟩, by decide, rfl, by nofun, ⟨errT, b!"b-error"⟩, ?_, .inr ⟨by simp [errT], rfl⟩⟩
  refine .returned (id := 20) rfl ⟨_, List.mem_singleton.2 rfl, .child (c := .ret 20 [.call 21 (.ident ⟨22, b!"fn", some 0⟩) []]) rfl (by simp [Node.children]) .self⟩ (.inl rfl)
    (.called rfl (.throughVar (x := 0) rfl ?_ ⟨_, rfl, rfl, ?_⟩ (.fnWild (.inr (.inl ?_))))) (limit_honours rfl)
  · rintro ⟨q, S, h, -⟩; cases h
  · intro g h; cases h
  · exact ⟨1, _, _, _, _, _, _, ⟨_, List.mem_singleton.2 rfl, .self⟩, .inr rfl, rfl, rfl⟩

/-- `Make.New(maker, "b-error")` for the constructor method `func (m Make) New(code string) error`: the receiver is
taken for the error code (here it is the constant `"a-error"`, for a type with underlying type string). -/
theorem method_expression_missed :
    Unsound ({ limitEnv [] [.ret 20 [.call 21 (.selector 22 (.ident ⟨23, b!"Make", none⟩) ⟨24, b!"New", none⟩) [.basicLit 3, .basicLit 4]]] with
      callee := fun _ => some 50, facts := ⟨fun o => if o = 50 then some [] else none, fun o => if o = 50 then some 0 else none, fun o => if o = 7 then some errT else none, fun _ => none⟩ })
      { noExtra with shift := fun _ => 1 } b!"b-error" := by
  refine ⟨⟨_, _, rfl, rfl, by decide⟩, by decide, rfl, ?_, ⟨errT, b!"b-error"⟩, ?_, .inr ⟨by simp [errT], rfl⟩⟩
  · intro q S a o hq ho c hc
    have ho : o = ⟨errT, a⟩ := ho
    subst ho
    rcases hc with hc | ⟨-, rfl⟩
    · simp [errT] at hc
    · refine .inr (.inr ⟨?_, rfl⟩)
      dsimp only at hq ⊢
      split at hq
      · rename_i h; rw [if_pos h]; nofun
      · cases hq
  refine .returned (id := 20) rfl ⟨_, List.mem_singleton.2 rfl, .self⟩ (.inl rfl)
    (.called rfl (.trusted (q := 50) (S := []) (a := b!"b-error") rfl ⟨rfl, rfl⟩ ?_ rfl)) (limit_honours rfl)
  intro p hp e he
  cases hp
  cases he
  exact .constant rfl

end Serum.Props.Soundness
