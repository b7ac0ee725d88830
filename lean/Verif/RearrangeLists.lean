import Verif.ConversionWalk
import Verif.RunTypes

/-! # Lists of declarations in another order -/

namespace Serum

/-! ## The walk over a package goes through one declaration after the other -/

namespace Conv
variable {env : Env} {info : Info}

/-- What is done for the events is done whatever comes next. -/
def Apart (env : Env) (info : Info) (es : List Event) : Prop :=
  ∀ (w : Walk) (rest : List Event), walk env info w (es ++ rest) = walk env info w es ++ walk env info w rest

theorem apart_nil : Apart env info [] := fun _ _ => by simp [walk]

theorem Apart.append {a b : List Event} (ha : Apart env info a) (hb : Apart env info b) : Apart env info (a ++ b) := fun w rest => by
  rw [List.append_assoc, ha, hb, ha, List.append_assoc]

theorem apart_node {n : Node} (hn : NotLit n) {es : List Event} (h : Apart env info es) : Apart env info (.push n :: (es ++ [.pop n])) := by
  intro w rest
  rw [List.cons_append, List.append_assoc, walk_push hn, walk_push hn, h, h w [.pop n], List.singleton_append, walk_pop hn, walk_pop hn]
  simp [walk]

theorem apart_lit {i : NodeId} {f : FnId} {t : FuncType} {b : List Node} {es : List Event} (h : Apart env info es) :
    Apart env info (.push (.funcLit i f t b) :: (es ++ [.pop (.funcLit i f t b)])) := by
  intro w rest
  simp only [List.cons_append, List.append_assoc, walk, h _ (_ :: _), List.nil_append, List.append_nil]

theorem apart_ident (i : Ident) : Apart env info [.push (.ident i), .pop (.ident i)] :=
  apart_node (n := .ident i) (by intro; simp) (es := []) apart_nil

theorem apart_idents : ∀ ns : List Ident, Apart env info (ns.flatMap fun n => [.push (.ident n), .pop (.ident n)])
  | [] => apart_nil
  | i :: ns => (apart_ident i).append (apart_idents ns)

mutual
theorem apart_events : ∀ n : Node, Apart env info (events n)
  | .ident i => by rw [events]; exact apart_ident i
  | .basicLit i => by rw [events]; exact apart_node (n := .basicLit i) (by intro; simp) (es := []) apart_nil
  | .compositeLit i es => by rw [events]; exact apart_node (by intro; simp) (apart_eventsList es)
  | .keyValue i k v => by rw [events]; exact apart_node (by intro; simp) ((apart_events k).append (apart_events v))
  | .funcLit i f t b => by rw [events]; exact apart_lit (apart_eventsList b)
  | .paren i x => by rw [events]; exact apart_node (by intro; simp) (apart_events x)
  | .selector i x s => by rw [events]; exact apart_node (by intro; simp) ((apart_events x).append (apart_ident s))
  | .index i x y => by rw [events]; exact apart_node (by intro; simp) ((apart_events x).append (apart_events y))
  | .typeAssert i x t => by rw [events]; exact apart_node (by intro; simp) (apart_events x)
  | .call i f as => by rw [events]; exact apart_node (by intro; simp) ((apart_events f).append (apart_eventsList as))
  | .unary i a x => by rw [events]; exact apart_node (by intro; simp) (apart_events x)
  | .assign i l r => by rw [events]; exact apart_node (by intro; simp) ((apart_eventsList l).append (apart_eventsList r))
  | .ret i rs => by rw [events]; exact apart_node (by intro; simp) (apart_eventsList rs)
  | .valueSpec i ns t vs => by rw [events]; exact apart_node (by intro; simp) ((apart_idents ns).append (apart_eventsList vs))
  | .typeSwitch i s a cs => by
    rw [events]; exact apart_node (by intro; simp) ((apart_eventsList s).append ((apart_events a).append (apart_eventsList cs)))
  | .caseClause i ts b => by rw [events]; exact apart_node (by intro; simp) ((apart_eventsList ts).append (apart_eventsList b))
  | .range i k v x b => by
    rw [events]
    exact apart_node (by intro; simp) (((apart_eventsOption k).append (apart_eventsOption v)).append ((apart_events x).append (apart_eventsList b)))
  | .send i c v => by rw [events]; exact apart_node (by intro; simp) ((apart_events c).append (apart_events v))
  | .other i cs => by rw [events]; exact apart_node (by intro; simp) (apart_eventsList cs)

theorem apart_eventsList : ∀ ns : List Node, Apart env info (eventsList ns)
  | [] => apart_nil
  | n :: ns => by rw [eventsList]; exact (apart_events n).append (apart_eventsList ns)

theorem apart_eventsOption : ∀ o : Option Node, Apart env info (eventsOption o)
  | none => apart_nil
  | some n => by rw [eventsOption]; exact apart_events n
end

/-- The steps of a package are those of its declarations, one after the other. -/
theorem steps_flatMap (decls : List TopDecl) : steps env info decls = decls.flatMap fun d => walk env info ⟨none, []⟩ (topEvents env d) := by
  unfold steps
  induction decls with
  | nil => simp [walk]
  | cons d ds ih =>
    rw [List.flatMap_cons, List.flatMap_cons, ← ih]
    cases d with
    | node n => exact apart_events n _ _
    | func f =>
      simp only [topEvents, List.cons_append, List.append_assoc, walk, apart_eventsList _ _ (_ :: _), List.nil_append,
        List.length_nil, ne_eq, not_true_eq_false, if_false, List.append_nil]

/-- With declarations in another order, the steps are in another order. -/
theorem steps_perm {decls decls' : List TopDecl} (h : decls.Perm decls') : (steps env info decls).Perm (steps env info decls') := by
  rw [steps_flatMap, steps_flatMap]
  exact h.flatMap_right _

end Conv

/-! ## Interfaces -/

section
open IfaceSpec
variable {env : Env} {decls decls' : List IfaceDecl} (hs : ∀ d, d ∈ decls ↔ d ∈ decls')
include hs

theorem has_mem {d : IfaceDecl} {m : GoString} {S : CodeSet} (h : Has env decls d m S) : Has env decls' d m S := by
  induction h with
  | own h => exact .own h
  | embeds h1 h2 _ ih => exact .embeds h1 ((hs _).1 h2) ih
  | imports h1 h2 h3 => exact .imports h1 h2 h3

theorem contributes_mem {e : Embedded} {m : GoString} {S : CodeSet} (h : Contributes env decls e m S) : Contributes env decls' e m S := by
  cases e with
  | name id n => obtain ⟨d, hd, hn, h⟩ := h; exact ⟨d, (hs _).1 hd, hn, has_mem hs h⟩
  | qualified id => exact h

theorem takesFrom_mem {d : IfaceDecl} {es : List Embedded} {m : GoString} {S : CodeSet} (h : TakesFrom env decls d es m S) :
    TakesFrom env decls' d es m S := by
  induction h with
  | own h => exact .own h
  | embeds g1 g2 g3 g4 _ ih =>
    exact .embeds g1 g2 (fun e he T hT => g3 e he T (contributes_mem (fun d => (hs d).symm) hT)) ((hs _).1 g4) ih
  | imports g1 g2 g3 g4 g5 => exact .imports g1 g2 (fun e he T hT => g3 e he T (contributes_mem (fun d => (hs d).symm) hT)) g4 g5

theorem clashOf_mem {d : IfaceDecl} {pre : List Embedded} {e : Embedded} {x : IfaceDiag} (h : ClashOf env decls d pre e x) :
    ClashOf env decls' d pre e x := by
  obtain ⟨m, S, T, missing, unused, k1, k2, k3⟩ := h
  refine ⟨m, S, T, missing, unused, takesFrom_mem hs k1, ?_, k3⟩
  cases e with
  | name id n => obtain ⟨d, hd, hn, h⟩ := k2; exact ⟨d, (hs _).1 hd, hn, takesFrom_mem hs h⟩
  | qualified id => exact k2

theorem clashes_mem {d : IfaceDecl} {x : IfaceDiag} : clashes env decls d x = clashes env decls' d x := by
  have : ∀ (es pre : List Embedded), clashesFrom env decls d pre es x = clashesFrom env decls' d pre es x := by
    intro es
    induction es with
    | nil => intro pre; rfl
    | cons e es ih =>
      intro pre
      have hc : ClashOf env decls d pre e x ↔ ClashOf env decls' d pre e x := ⟨clashOf_mem hs, clashOf_mem fun d => (hs d).symm⟩
      simp only [clashesFrom, ih]
      by_cases hx : ClashOf env decls d pre e x
      · rw [if_pos hx, if_pos (hc.1 hx)]
      · rw [if_neg hx, if_neg fun h => hx (hc.2 h)]
  exact this _ _

end

namespace Interfaces
variable {env : Env} {info : Info}

/-- What is reported for a declaration by itself. -/
def reportsOf (env : Env) (info : Info) (d : IfaceDecl) : List IfaceDiag :=
  match check env info d with
  | .ok r => r.2
  | .error _ => []

theorem collect_diags : ∀ {ds : List IfaceDecl} {st st' : St}, collect env info ds st = .ok st' →
    st'.diags = st.diags ++ ds.flatMap (reportsOf env info)
  | [], st, st', h => by cases h; simp
  | d :: ds, st, st', h => by
    unfold collect at h
    simp only [bind, Except.bind] at h
    split at h
    · cases h
    rename_i r hr
    have := collect_diags h
    rw [this, List.flatMap_cons]
    have e : reportsOf env info d = r.2 := by unfold reportsOf; rw [hr]
    rw [e, ← List.append_assoc]
    congr 1
    split
    · rfl
    · split <;> rfl

end Interfaces

/-! ## Types -/

/-- What is reported for a type. -/
def tagReports (env : Env) (d : Decls) (td : TypeDecls) (fuel : Nat) (spec : TypeSpec) : List TagDiag :=
  match typeToTag env spec.typ with
  | none => []
  | some err => match tagErrorType env d td fuel spec err with
    | .ok r => r.2
    | .error _ => []

theorem tag_reports {env : Env} {d : Decls} {td : TypeDecls} {fuel : Nat} : ∀ {specs : List TypeSpec} {facts facts' : Facts} {ds : List TagDiag},
    findAndTagErrorTypes env d td fuel specs facts = .ok (facts', ds) → ds = specs.flatMap (tagReports env d td fuel)
  | [], _, _, _, h => by cases h; rfl
  | spec :: specs, facts, facts', ds, h => by
    unfold findAndTagErrorTypes at h
    rw [List.flatMap_cons]
    cases ht : typeToTag env spec.typ with
    | none =>
      simp only [ht] at h
      have e : tagReports env d td fuel spec = [] := by unfold tagReports; rw [ht]
      rw [e]; exact tag_reports h
    | some err =>
      simp only [ht, bind, Except.bind, pure, Except.pure] at h
      split at h
      · cases h
      rename_i r hr
      split at h
      · cases h
      rename_i r' hr'
      cases h
      have e : tagReports env d td fuel spec = r.2 := by simp only [tagReports, ht, hr]
      rw [e, tag_reports hr']

/-- The error types found do not depend on the order. -/
theorem tag_perm {env : Env} {d : Decls} {td : TypeDecls} {fuel : Nat} {specs specs' : List TypeSpec} (hp : specs.Perm specs')
    {facts t t' : Facts} {ds ds' : List TagDiag} (h : findAndTagErrorTypes env d td fuel specs facts = .ok (t, ds))
    (h' : findAndTagErrorTypes env d td fuel specs' facts = .ok (t', ds')) (hn : (specs.map TypeSpec.typ).Nodup)
    (hnamed : ∀ spec ∈ specs, ∃ o, spec.typ = .named o) : t.errorType = t'.errorType := by
  obtain ⟨a1, a2, -⟩ := tag_types h hn hnamed
  obtain ⟨b1, b2, -⟩ := tag_types h' (((hp.map _).nodup_iff).1 hn) fun s hs => hnamed s (hp.mem_iff.2 hs)
  funext o
  by_cases hs : ∃ spec ∈ specs, spec.typ = .named o
  · obtain ⟨spec, hs, ho⟩ := hs
    rcases a2 spec hs o ho with ⟨k1, k2⟩ | ⟨err, fact, es, k1, k2, k3⟩ <;>
      rcases b2 spec (hp.mem_iff.1 hs) o ho with ⟨l1, l2⟩ | ⟨err', fact', es', l1, l2, l3⟩
    · rw [k2, l2]
    · rw [k1] at l1; cases l1
    · rw [k1] at l1; cases l1
    · rw [k1] at l1; cases l1
      rw [k2] at l2; cases l2
      rcases k3 with ⟨k, k3⟩ | ⟨et, k, k3⟩ <;> rcases l3 with ⟨l, l3⟩ | ⟨et', l, l3⟩
      · rw [k3, l3]
      · rw [k] at l; cases l
      · rw [k] at l; cases l
      · rw [k] at l; cases l; rw [k3, l3]
  · have k : ∀ spec ∈ specs, spec.typ ≠ .named o := fun s h1 h2 => hs ⟨s, h1, h2⟩
    rw [a1 o k, b1 o fun s h1 => k s (hp.mem_iff.2 h1)]

end Serum
