import Verif.AnalyseProgram
import Verif.Props.Tracking

/-! # A computable condition under which a function body is regular (for examples) -/

namespace Serum
namespace Analyse
open Flow Taint

/-- Not a function literal, and assigning to variables only. -/
def simpleNode (env : Env) : Node → Bool
  | .funcLit .. => false
  | .assign _ lhs rhs => !rhs.isEmpty && lhs.all fun l =>
    match l.unparen with
    | .ident t => match t.obj with
      | some o => decide ((env.object o).kind = .var)
      | none => true
    | _ => true
  | _ => true

/-- Not declared by `var … = …`. -/
def simpleObject : ObjInfo → Bool
  | ⟨_, _, .valueSpec ..⟩ => false
  | _ => true

/-- Neither function literals, nor `var … = …`, nor assignments to constants. -/
def simple (env : Env) (body : List Node) : Bool :=
  (Node.inspectList (fun _ => true) body).all (simpleNode env) && env.objects.all simpleObject

variable {env : Env} {body : List Node}

theorem simple_node (h : simple env body = true) {n : Node} (hn : Occurs n body) : simpleNode env n = true := by
  unfold simple at h
  simp only [Bool.and_eq_true, List.all_eq_true] at h
  exact h.1 n ((mem_inspectList _ _ _).2 hn)

theorem simple_decl (h : simple env body = true) (x : ObjId) {names : List Ident} {values : List Node} :
    (env.object x).decl ≠ .valueSpec names values := by
  unfold simple at h
  simp only [Bool.and_eq_true, List.all_eq_true] at h
  unfold Env.object
  rw [List.getD_eq_getElem?_getD]
  cases ho : env.objects[x]? with
  | none => simp
  | some o =>
    have := h.2 o (List.mem_of_getElem? ho)
    intro hd
    simp only [Option.getD_some] at hd
    obtain ⟨k, p, d⟩ := o
    simp only at hd
    subst hd
    simp [simpleObject] at this

theorem simple_source (h : simple env body = true) {x : ObjId} {e : Node} (hs : Source env body x e) :
    AssignedBy body x e ∧ (env.object x).kind = .var := by
  rcases hs with ⟨_, _, _, _, hd, -⟩ | hs
  · exact absurd hd (simple_decl h x)
  · refine ⟨hs, ?_⟩
    obtain ⟨id, lhs, rhs, ho, hl, k, l, t, h1, h2, h3, h4⟩ := hs
    have := simple_node h ho
    simp only [simpleNode, Bool.and_eq_true, List.all_eq_true] at this
    have := this.2 l (List.mem_of_getElem? h1)
    simpa [h2, h3] using this

theorem simple_noLit (h : simple env body = true) (p : ObjId) : ¬ LitParam body p := by
  rintro ⟨id, fn, type, b, ho, -⟩
  have := simple_node h ho
  simp [simpleNode] at this

theorem Regular.of_simple {f : FnId} (hbody : (env.func f).body = some body) (h : simple env body = true)
    (hc : importErrorConstructorFact env f = none) : Regular env f body where
  has := hbody
  scope := ⟨(Props.Tracking.scope_of_noLits _ _ (simple_noLit h)).1,
    fun _ i _ _ => (Props.Tracking.scope_of_noLits _ _ (simple_noLit h)).2 i⟩
  parsed := ⟨fun id fn type b ho => by have := simple_node h ho; simp [simpleNode] at this,
    fun id lhs rhs ho _ hn => by
      have := simple_node h ho
      subst hn
      simp [simpleNode] at this⟩
  consts := ⟨fun _ => 0, fun _ => Nat.zero_le _, fun x e i o hk hs _ _ => absurd (simple_source h hs).2 hk⟩
  ctor := fun position hp => by rw [hc] at hp; cases hp

end Analyse
end Serum
