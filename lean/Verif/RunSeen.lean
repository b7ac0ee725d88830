import Verif.Props.Run

/-! # The program as a run sees it -/

namespace Serum
open RunSpec

theorem unique_of_nodup {α β : Type} : ∀ {l : List (α × β)}, (l.map Prod.fst).Nodup → ∀ {a b b'}, (a, b) ∈ l → (a, b') ∈ l → b = b'
  | [], _, _, _, _, h, _ => by cases h
  | x :: l, hn, a, b, b', h, h' => by
    simp only [List.map_cons, List.nodup_cons, List.mem_map, not_exists, not_and] at hn
    rcases List.mem_cons.1 h with h | h <;> rcases List.mem_cons.1 h' with h' | h'
    · rw [← h] at h'; exact (Prod.mk.inj h').2.symm
    · exact absurd (by rw [← h]) (hn.1 _ h')
    · exact absurd (by rw [← h']) (hn.1 _ h)
    · exact unique_of_nodup hn.2 h h'

namespace Prepared
variable {P : Package} {S : Schedule} {strict : Bool} {s : Stages} {out : Outcome}

theorem compared_unique (h : Prepared P S strict s out) (hS : S.Fair) (ho : Objects P) {f : FnId} {c c' : FuncCodes} (hc : Compared P f c)
    (hc' : Compared P f c') : c = c' :=
  unique_of_nodup (h.claims_nodup hS ho.funcs) ((h.claims_iff hS ho.funcs).2 hc) ((h.claims_iff hS ho.funcs).2 hc')

theorem roots_iff (h : Prepared P S strict s out) (hS : S.Fair) (ho : Objects P) {f : FnId} :
    f ∈ (S.claims s.claims).map Prod.fst ↔ ∃ c, Compared P f c := by
  rw [List.mem_map]
  constructor
  · rintro ⟨⟨g, c⟩, hm, rfl⟩
    exact ⟨c, (h.claims_iff hS ho.funcs).1 ((hS.claims _).mem_iff.1 hm)⟩
  · rintro ⟨c, hc⟩
    exact ⟨(f, c), (hS.claims _).mem_iff.2 ((h.claims_iff hS ho.funcs).2 hc), rfl⟩

end Prepared
end Serum

namespace Serum.Ran
open Serum RunSpec ConvSpec Conv

variable {P : Package} {S : Schedule} {strict : Bool} {s : Stages} {out : Outcome}

/-- Methods are declared once. -/
theorem declaredOnce (ho : Objects P) (facts : Facts) : DeclaredOnce (P.at_ facts) := by
  intro m f g hf hg he
  exact ho.distinct f (Package.methods_sub hf) g (Package.methods_sub hg) he

/-- The first phase. -/
theorem looked_first (h : Ran P S strict s out) :
    Search.Looked (P.plan s.facts) ((S.claims s.claims).map Prod.fst) (fun _ => []) Search.start s.searched :=
  (Search.findAll_looked _ _ _ _ Search.tidy_start h.search).1

theorem vis_searched (h : Ran P S strict s out) (hS : S.Fair) (ho : Objects P) (hp : Props.Interfaces.Program P.ifaces) (x : FnId) :
    s.searched.scc.Vis x ↔ Analysed P out.facts x := by
  rw [h.looked_first.vis_iff]
  unfold Analysed
  rw [← Props.Run.facts_during h hS ho hp]
  constructor
  · rintro ⟨f, hf, hr⟩; obtain ⟨c, hc⟩ := (h.roots_iff hS ho).1 hf; exact ⟨f, c, hc, hr⟩
  · rintro ⟨f, c, hc, hr⟩; exact ⟨f, (h.roots_iff hS ho).2 ⟨c, hc⟩, hr⟩

theorem seen_eq (h : Ran P S strict s out) (hS : S.Fair) (ho : Objects P) (hp : Props.Interfaces.Program P.ifaces) :
    Search.mixed s.searched (P.plan s.facts) (P.plan out.facts) = seen P out.facts := by
  funext x
  unfold Search.mixed seen
  rw [Props.Run.facts_during h hS ho hp]
  congr 1
  exact propext (h.vis_searched hS ho hp x)

theorem program_eq (h : Ran P S strict s out) (hS : S.Fair) (ho : Objects P) (hp : Props.Interfaces.Program P.ifaces) :
    Props.Conversions.program (P.plan s.facts) (P.plan out.facts) ((S.claims s.claims).map Prod.fst) = seen P out.facts := by
  rw [← h.seen_eq hS ho hp]
  funext x
  unfold Search.mixed Props.Conversions.program
  congr 1
  exact propext (h.looked_first.vis_iff x).symm

/-- Both phases. -/
theorem looked (h : Ran P S strict s out) (hS : S.Fair) (ho : Objects P) (hp : Props.Interfaces.Program P.ifaces) :
    Search.Looked (seen P out.facts) ((S.claims s.claims).map Prod.fst ++ Conv.askedAll (P.at_ out.facts) S.conv (checks P out.facts))
      (fun _ => []) Search.start s.final := by
  have l1 := h.looked_first.plan_congr (plan' := seen P out.facts) fun x hx => by
    rw [← h.seen_eq hS ho hp]; simp [Search.mixed, hx]
  have hc := h.conv
  rw [(Conv.runSteps_congr _ _ Search.mixed_agree).1, h.seen_eq hS ho hp] at hc
  have l2 := Conv.runSteps_looked l1.tidy hc
  exact l1.trans' l2

theorem asked_iff (h : Ran P S strict s out) (hS : S.Fair) (ho : Objects P) {f : FnId} :
    f ∈ Conv.askedAll (P.at_ out.facts) S.conv (checks P out.facts) ↔ Asked (P.at_ out.facts) (checks P out.facts) f :=
  Conv.mem_askedAll hS.conv (declaredOnce ho _) (Conv.no_panic_steps h.conv)

theorem vis_final (h : Ran P S strict s out) (hS : S.Fair) (ho : Objects P) (hp : Props.Interfaces.Program P.ifaces) (x : FnId) :
    s.final.scc.Vis x ↔ LookedAt P out.facts x := by
  rw [(h.looked hS ho hp).vis_iff]
  unfold LookedAt
  constructor
  · rintro ⟨f, hf, hr⟩
    refine ⟨f, ?_, hr⟩
    rcases List.mem_append.1 hf with hf | hf
    · exact .inl ((h.roots_iff hS ho).1 hf)
    · exact .inr ((h.asked_iff hS ho).1 hf)
  · rintro ⟨f, hf, hr⟩
    refine ⟨f, List.mem_append.2 ?_, hr⟩
    rcases hf with hf | hf
    · exact .inl ((h.roots_iff hS ho).2 hf)
    · exact .inr ((h.asked_iff hS ho).2 hf)

end Serum.Ran
