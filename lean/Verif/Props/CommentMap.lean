import Verif.CommentMap
import Verif.Props.Comments

/-!
# C56 — a comment belongs to the statement it stands at

Annotations are read from the comments of a return statement.  Which comments these are is a matter of layout.
-/

namespace Serum.Props.CommentMap
open Serum CommentMap

variable {line : Nat → Nat}

/-- The comment groups of a file, in the order of the source. -/
def InOrder (cs : List Group) : Prop := (∀ c ∈ cs, c.pos ≤ c.stop) ∧ cs.Pairwise fun a b => a.stop ≤ b.pos

/-- `r` is the first node that begins after the comment. -/
def Above (nodes : List Item) (c : Group) (r : Item) : Prop :=
  ∃ pre post, nodes = pre ++ r :: post ∧ (∀ n ∈ pre, n.pos < c.stop) ∧ c.stop ≤ r.pos

/-- The comment starts on the line on which `r` ends; or on the next one, and then the line after the comment is empty (the next node begins
further down, or there is none). -/
def Behind (line : Nat → Nat) (nodes : List Item) (c : Group) (r : Item) : Prop :=
  r ∈ nodes ∧ (line r.stop = line c.pos ∨ (line r.stop + 1 = line c.pos ∧ ∀ q, Above nodes c q → line c.stop + 1 < line q.pos))

/-- The comment stands behind everything and `r` is the last node. -/
def AtEnd (nodes : List Item) (c : Group) (r : Item) : Prop := (∀ n ∈ nodes, n.pos < c.stop) ∧ nodes.getLast? = some r

/-! ## Lemmas -/

theorem pop_mem {pos : Nat} : ∀ {s : List Item}, (∀ g ∈ (pop pos s).1, g ∈ s ∧ g.stop ≤ pos) ∧ ∀ n ∈ (pop pos s).2, n ∈ s
  | [] => by simp [pop]
  | n :: s => by
    obtain ⟨h1, h2⟩ := pop_mem (pos := pos) (s := s)
    unfold pop
    split
    · rename_i hn
      refine ⟨fun g hg => ?_, fun m hm => List.mem_cons_of_mem _ (h2 m hm)⟩
      cases hp : (pop pos s).1 with
      | none => rw [hp] at hg; cases hg; exact ⟨by simp, hn⟩
      | some t =>
        rw [hp] at hg
        have hg : some t = some g := hg
        cases hg
        obtain ⟨k1, k2⟩ := h1 g (by rw [hp]; rfl)
        exact ⟨by simp [k1], k2⟩
    · exact ⟨nofun, fun m hm => hm⟩

theorem choose_some {next prev recent : Option Item} {c : Group} (h : next.isSome = true ∨ prev.isSome = true) :
    ∃ a, choose line next prev recent c = some a := by
  unfold choose
  split
  · exact ⟨_, rfl⟩
  · split
    · exact ⟨_, rfl⟩
    · rename_i hp
      cases next with
      | some q => exact ⟨q, rfl⟩
      | none =>
        rcases h with h | h
        · cases h
        · obtain ⟨p, rfl⟩ := Option.isSome_iff_exists.1 h
          simp [Option.filter] at hp

theorem choose_cases {next prev recent : Option Item} {c : Group} {a : Item} (h : choose line next prev recent c = some a) :
    (recent = some a ∧ near line next c a = true) ∨ (prev = some a ∧ (near line next c a = true ∨ next = none)) ∨ next = some a := by
  unfold choose at h
  split at h
  · rename_i g hg
    cases h
    rw [Option.filter_eq_some_iff] at hg
    exact .inl hg
  · split at h
    · rename_i g hg
      cases h
      rw [Option.filter_eq_some_iff] at hg
      simp only [Bool.or_eq_true, Option.isNone_iff_eq_none] at hg
      exact .inr (.inl hg)
    · exact .inr (.inr h)

theorem before_spec {next prev : Option Item} {pre : List Item} {s' : State} : ∀ {rest : List Group} {recent : Option Item} {stack : List Item}
    {found : List (Item × Group)}, before line next prev recent stack found rest = some s' → InOrder rest →
    (∀ g ∈ recent, g ∈ pre ∧ ∀ c ∈ rest, g.stop ≤ c.pos) → (∀ n ∈ stack, n ∈ pre) →
    found <+: s'.found ∧ (∀ g ∈ s'.recent, g ∈ pre ∧ ∀ c ∈ s'.rest, g.stop ≤ c.pos) ∧ (∀ n ∈ s'.stack, n ∈ pre) ∧
    ∃ now, rest = now ++ s'.rest ∧ s'.found.map Prod.snd = found.map Prod.snd ++ now ∧
      (∀ c ∈ now, (∀ q ∈ next, c.stop ≤ q.pos) ∧ ∃ recent' a, (a, c) ∈ s'.found ∧ choose line next prev recent' c = some a ∧
        ∀ g ∈ recent', g ∈ pre ∧ g.stop ≤ c.pos) ∧
      ∀ c ∈ s'.rest, ∃ q, next = some q ∧ q.pos < c.stop
  | [], recent, stack, found, h, ho, hr, hs => by
    cases h
    exact ⟨List.prefix_rfl, hr, hs, [], rfl, by simp, nofun, nofun⟩
  | c :: rest, recent, stack, found, h, ho, hr, hs => by
    unfold before at h
    obtain ⟨p1, p2⟩ := pop_mem (pos := c.pos) (s := stack)
    have hord : ∀ d ∈ rest, c.stop ≤ d.pos := (List.pairwise_cons.1 ho.2).1
    have hlen := ho.1 c (by simp)
    have hr' : ∀ g ∈ (pop c.pos stack).1.or recent, g ∈ pre ∧ g.stop ≤ c.pos := by
      intro g hg
      cases hp : (pop c.pos stack).1 with
      | none =>
        rw [hp] at hg
        obtain ⟨k1, k2⟩ := hr g hg
        exact ⟨k1, k2 c (by simp)⟩
      | some t =>
        rw [hp] at hg
        have hg : some t = some g := hg
        cases hg
        obtain ⟨k1, k2⟩ := p1 g (by rw [hp]; rfl)
        exact ⟨hs g k1, k2⟩
    split at h
    · rename_i hn
      have hn : ∀ q ∈ next, c.stop ≤ q.pos := by
        intro q hq
        rw [show next = some q from hq] at hn
        simpa using hn
      split at h
      · cases h
      rename_i a ha
      obtain ⟨k1, k2, k3, now, k4, k5, k6, k7⟩ := before_spec h ⟨fun d hd => ho.1 d (by simp [hd]), (List.pairwise_cons.1 ho.2).2⟩
        (fun g hg => ⟨(hr' g hg).1, fun d hd => Nat.le_trans (hr' g hg).2 (Nat.le_trans hlen (hord d hd))⟩) (fun n hn => hs n (p2 n hn))
      refine ⟨(List.prefix_append _ _).trans k1, k2, k3, c :: now, by rw [k4]; rfl, by rw [k5]; simp, ?_, k7⟩
      intro d hd
      rcases List.mem_cons.1 hd with rfl | hd
      · exact ⟨hn, _, a, k1.subset (by simp), ha, hr'⟩
      · exact k6 d hd
    · rename_i hn
      cases h
      refine ⟨List.prefix_rfl, hr, hs, [], rfl, by simp, nofun, fun d hd => ?_⟩
      cases next with
      | none => exact absurd rfl hn
      | some q =>
        have : q.pos < c.stop := by simpa using hn
        refine ⟨q, rfl, ?_⟩
        rcases List.mem_cons.1 hd with rfl | hd
        · exact this
        · have := hord d hd
          have := ho.1 d (by simp [hd])
          omega

/-- The turn of each comment group. -/
theorem walk_spec {out : List (Item × Group)} : ∀ {nodes pre : List Item} {s : State}, walk line pre.getLast? s nodes = some out →
    InOrder s.rest → (∀ g ∈ s.recent, g ∈ pre ∧ ∀ c ∈ s.rest, g.stop ≤ c.pos) → (∀ n ∈ s.stack, n ∈ pre) →
    (∀ c ∈ s.rest, ∀ n ∈ pre, n.pos < c.stop) →
    s.found <+: out ∧ out.map Prod.snd = s.found.map Prod.snd ++ s.rest ∧
    ∀ c ∈ s.rest, ∃ mid post recent a, nodes = mid ++ post ∧ (a, c) ∈ out ∧
      choose line post.head? (pre ++ mid).getLast? recent c = some a ∧ (∀ n ∈ pre ++ mid, n.pos < c.stop) ∧
      (∀ q ∈ post.head?, c.stop ≤ q.pos) ∧ ∀ g ∈ recent, g ∈ pre ++ mid ∧ g.stop ≤ c.pos
  | [], pre, s, h, ho, hr, hs, hpre => by
    unfold walk at h
    obtain ⟨s', hb, rfl⟩ := Option.map_eq_some_iff.1 h
    obtain ⟨k1, -, -, now, k4, k5, k6, k7⟩ := before_spec hb ho hr hs
    have : s'.rest = [] := List.eq_nil_iff_forall_not_mem.2 fun c hc => by
      obtain ⟨q, hq, -⟩ := k7 c hc
      cases hq
    rw [this, List.append_nil] at k4
    refine ⟨k1, by rw [k5, k4], fun c hc => ?_⟩
    obtain ⟨l1, rec', a, l2, l3, l4⟩ := k6 c (k4 ▸ hc)
    exact ⟨[], [], rec', a, rfl, l2, by simpa using l3, by simpa using hpre c hc, nofun, by simpa using l4⟩
  | q :: nodes, pre, s, h, ho, hr, hs, hpre => by
    unfold walk at h
    split at h
    · cases h
    rename_i s' hb
    obtain ⟨k1, k2, k3, now, k4, k5, k6, k7⟩ := before_spec hb ho hr hs
    have hsub : ∀ c ∈ s'.rest, c ∈ s.rest := fun c hc => by rw [k4]; exact List.mem_append_right _ hc
    have ho' : InOrder s'.rest := ⟨fun c hc => ho.1 c (hsub c hc), by
      have := ho.2
      rw [k4] at this
      exact (List.pairwise_append.1 this).2.1⟩
    have e : some q = (pre ++ [q]).getLast? := by simp
    rw [e] at h
    obtain ⟨m1, m2, m3⟩ := walk_spec h ho' (fun g hg => ⟨List.mem_append_left _ (k2 g hg).1, (k2 g hg).2⟩)
      (fun n hn => by
        dsimp only at hn
        split at hn
        · unfold push at hn
          rcases List.mem_cons.1 hn with rfl | hn
          · simp
          · exact List.mem_append_left _ (k3 n (pop_mem.2 n hn))
        · exact List.mem_append_left _ (k3 n hn))
      (fun c hc n hn => by
        rcases List.mem_append.1 hn with hn | hn
        · exact hpre c (hsub c hc) n hn
        · cases List.mem_singleton.1 hn
          obtain ⟨q', hq, hlt⟩ := k7 c hc
          cases hq; exact hlt)
    dsimp only at m1 m2 m3
    refine ⟨k1.trans m1, by rw [m2, k5, k4, List.append_assoc], fun c hc => ?_⟩
    rw [k4] at hc
    rcases List.mem_append.1 hc with hc | hc
    · obtain ⟨l1, rec', a, l2, l3, l4⟩ := k6 c hc
      exact ⟨[], q :: nodes, rec', a, rfl, m1.subset l2, by simpa using l3, by simpa using hpre c (by rw [k4]; exact List.mem_append_left _ hc),
        by simpa using l1, by simpa using l4⟩
    · obtain ⟨mid, post, rec', a, l1, l2, l3, l4, l5, l6⟩ := m3 c hc
      refine ⟨q :: mid, post, rec', a, by rw [l1]; rfl, l2, ?_, ?_, l5, ?_⟩
      · rw [← l3]; congr 1; simp
      · simpa using l4
      · simpa using l6

theorem sorted_eq {cs : List Group} (h : InOrder cs) : (cs.mergeSort fun a b => decide (a.pos ≤ b.pos)) = cs := by
  apply List.mergeSort_of_pairwise
  have : ∀ {l : List Group}, InOrder l → l.Pairwise fun a b => decide (a.pos ≤ b.pos) = true := by
    intro l
    induction l with
    | nil => exact fun _ => .nil
    | cons c l ih =>
      rintro ⟨h1, h2⟩
      obtain ⟨h3, h4⟩ := List.pairwise_cons.1 h2
      refine .cons (fun d hd => ?_) (ih ⟨fun d hd => h1 d (by simp [hd]), h4⟩)
      have := h1 c (by simp)
      have := h3 d hd
      simp; omega
  exact this h

theorem split_unique {p : Item → Prop} : ∀ {pre pre' : List Item} {r r' : Item} {post post' : List Item},
    pre ++ r :: post = pre' ++ r' :: post' → (∀ n ∈ pre, p n) → (∀ n ∈ pre', p n) → ¬ p r → ¬ p r' → pre = pre' ∧ r = r' ∧ post = post'
  | [], [], _, _, _, _, h, _, _, _, _ => by cases h; exact ⟨rfl, rfl, rfl⟩
  | [], n :: pre', _, _, _, _, h, _, h2, h3, _ => by
    cases h; exact absurd (h2 _ (by simp)) h3
  | n :: pre, [], _, _, _, _, h, h1, _, _, h4 => by
    cases h; exact absurd (h1 _ (by simp)) h4
  | n :: pre, n' :: pre', _, _, _, _, h, h1, h2, h3, h4 => by
    simp only [List.cons_append, List.cons.injEq] at h
    obtain ⟨rfl, h⟩ := h
    obtain ⟨rfl, rfl, rfl⟩ := split_unique h (fun n hn => h1 n (by simp [hn])) (fun n hn => h2 n (by simp [hn])) h3 h4
    exact ⟨rfl, rfl, rfl⟩

theorem above_unique {nodes : List Item} {c : Group} {r r' : Item} (h : Above nodes c r) (h' : Above nodes c r') : r = r' := by
  obtain ⟨pre, post, rfl, h1, h2⟩ := h
  obtain ⟨pre', post', e, h1', h2'⟩ := h'
  exact (split_unique (p := fun n => n.pos < c.stop) e h1 h1' (by omega) (by omega)).2.1

/-- The situation in which a comment group is attached. -/
theorem turn {nodes : List Item} {cs : List Group} {out : List (Item × Group)} (h : newCommentMap line nodes cs = some out) (ho : InOrder cs) :
    out.map Prod.snd = cs ∧ ∀ c ∈ cs, ∃ pre post recent a, nodes = pre ++ post ∧ (a, c) ∈ out ∧
      choose line post.head? pre.getLast? recent c = some a ∧ (∀ n ∈ pre, n.pos < c.stop) ∧
      (∀ q ∈ post.head?, c.stop ≤ q.pos) ∧ ∀ g ∈ recent, g ∈ pre ∧ g.stop ≤ c.pos := by
  unfold newCommentMap at h
  rw [sorted_eq ho] at h
  obtain ⟨-, h2, h3⟩ := walk_spec (pre := []) h ho (fun g hg => by cases hg) nofun nofun
  exact ⟨by simpa using h2, fun c hc => by simpa using h3 c hc⟩

/-! ## Results -/

theorem before_some {next prev : Option Item} (hn : next.isSome = true ∨ prev.isSome = true) : ∀ (rest : List Group) (recent : Option Item)
    (stack : List Item) (found : List (Item × Group)), ∃ s, before line next prev recent stack found rest = some s
  | [], _, _, _ => ⟨_, rfl⟩
  | c :: rest, recent, stack, found => by
    unfold before
    split
    · obtain ⟨a, ha⟩ := choose_some (line := line) (recent := (pop c.pos stack).1.or recent) (c := c) hn
      rw [ha]
      exact before_some hn rest _ _ _
    · exact ⟨_, rfl⟩

theorem walk_some : ∀ (nodes : List Item) (prev : Option Item) (s : State), (prev.isSome = true ∨ nodes ≠ []) → ∃ out, walk line prev s nodes = some out
  | [], prev, s, h => by
    obtain ⟨s', hs⟩ := before_some (line := line) (next := none) (prev := prev) (.inr (h.resolve_right (by simp))) s.rest s.recent s.stack s.found
    exact ⟨s'.found, by unfold walk; rw [hs]; rfl⟩
  | q :: nodes, prev, s, _ => by
    obtain ⟨s', hs⟩ := before_some (line := line) (next := some q) (prev := prev) (.inl rfl) s.rest s.recent s.stack s.found
    unfold walk
    rw [hs]
    exact walk_some nodes _ _ (.inl rfl)

/-- **C56.** Attaching comments succeeds (a file has nodes), and each comment group is attached to exactly one node: none is lost, none
counts twice. -/
theorem attached_once {nodes : List Item} {cs : List Group} (hn : nodes ≠ []) (ho : InOrder cs) :
    ∃ out, newCommentMap line nodes cs = some out ∧ out.map Prod.snd = cs := by
  obtain ⟨out, h⟩ := walk_some (line := line) nodes none ⟨none, [], cs.mergeSort fun a b => decide (a.pos ≤ b.pos), []⟩ (.inr hn)
  exact ⟨out, h, (turn h ho).1⟩

theorem entry_unique {out : List (Item × Group)} {cs : List Group} (hout : out.map Prod.snd = cs) (hnd : cs.Nodup) {a b : Item} {c : Group}
    (ha : (a, c) ∈ out) (hb : (b, c) ∈ out) : a = b := by
  subst hout
  revert ha hb
  induction out with
  | nil => intro ha; cases ha
  | cons x out ih =>
    intro ha hb
    simp only [List.map_cons, List.nodup_cons, List.mem_map] at hnd
    rcases List.mem_cons.1 ha with ha | ha <;> rcases List.mem_cons.1 hb with hb | hb
    · rw [← ha] at hb; cases hb; rfl
    · exact absurd ⟨_, hb, by rw [← ha]⟩ hnd.1
    · exact absurd ⟨_, ha, by rw [← hb]⟩ hnd.1
    · exact ih hnd.2 ha hb

theorem near_iff {nodes pre post : List Item} {c : Group} {r : Item} (hs : nodes = pre ++ post) (h1 : ∀ n ∈ pre, n.pos < c.stop)
    (h2 : ∀ q ∈ post.head?, c.stop ≤ q.pos) : near line post.head? c r = true ↔
      (line r.stop = line c.pos ∨ (line r.stop + 1 = line c.pos ∧ ∀ q, Above nodes c q → line c.stop + 1 < line q.pos)) := by
  subst hs
  unfold near
  simp only [Bool.or_eq_true, beq_iff_eq, Bool.and_eq_true]
  refine or_congr Iff.rfl (and_congr Iff.rfl ?_)
  cases post with
  | nil =>
    refine ⟨fun _ q hq => ?_, fun _ => rfl⟩
    obtain ⟨pre', post', e, -, k⟩ := hq
    have : q.pos < c.stop := h1 q (by rw [List.append_nil] at e; rw [e]; simp)
    omega
  | cons p post =>
    have hp : Above (pre ++ p :: post) c p := ⟨pre, post, rfl, h1, h2 p rfl⟩
    simp only [List.head?_cons, decide_eq_true_eq]
    exact ⟨fun k q hq => above_unique hp hq ▸ k, fun k => k p hp⟩

/-- **C56.** A comment belongs to a node only if it stands at it: right before it, with nothing in between; or on the line it ends; or on
the line below, followed by an empty line; or at the end of the file, after the last node. -/
theorem only_near {nodes : List Item} {cs : List Group} {out : List (Item × Group)} (h : newCommentMap line nodes cs = some out)
    (ho : InOrder cs) (hnd : cs.Nodup) {r : Item} {c : Group} (hc : (r, c) ∈ out) :
    Above nodes c r ∨ Behind line nodes c r ∨ AtEnd nodes c r := by
  obtain ⟨hout, hturn⟩ := turn h ho
  have hmem : c ∈ cs := by rw [← hout]; exact List.mem_map.2 ⟨_, hc, rfl⟩
  obtain ⟨pre, post, recent, a, hs, ha, hch, h1, h2, h3⟩ := hturn c hmem
  cases entry_unique hout hnd hc ha
  have hbehind : r ∈ pre → near line post.head? c r = true → Behind line nodes c r :=
    fun hm hn => ⟨by rw [hs]; exact List.mem_append_left _ hm, (near_iff hs h1 h2).1 hn⟩
  rcases choose_cases hch with ⟨k1, k2⟩ | ⟨k1, k2 | k2⟩ | k1
  · exact .inr (.inl (hbehind (h3 r k1).1 k2))
  · exact .inr (.inl (hbehind (List.mem_of_getLast? k1) k2))
  · rw [List.head?_eq_none_iff] at k2
    subst k2
    rw [List.append_nil] at hs
    exact .inr (.inr ⟨fun n hn => h1 n (hs ▸ hn), by rw [hs]; exact k1⟩)
  · cases post with
    | nil => cases k1
    | cons q post => cases k1; exact .inl ⟨pre, post, hs, h1, h2 _ rfl⟩

/-- **C56.** A comment above a statement belongs to it: if the statement is the first node after the comment, begins on the line below the
comment (or on the same line), and nothing that begins before ends on the line on which the comment starts. -/
theorem above_attached {nodes : List Item} {cs : List Group} {out : List (Item × Group)} (h : newCommentMap line nodes cs = some out)
    (ho : InOrder cs) {r : Item} {c : Group} (hc : c ∈ cs) {pre post : List Item} (hs : nodes = pre ++ r :: post)
    (hpre : ∀ n ∈ pre, n.pos < c.stop) (hr : c.stop ≤ r.pos) (hadj : line r.pos ≤ line c.stop + 1)
    (hown : ∀ n ∈ pre, line n.stop ≠ line c.pos) : (r, c) ∈ out := by
  obtain ⟨hout, hturn⟩ := turn h ho
  obtain ⟨pre', post', recent, a, hs', ha, hch, h1, h2, h3⟩ := hturn c hc
  have hsplit : pre' = pre ∧ post' = r :: post := by
    cases post' with
    | nil =>
      rw [List.append_nil] at hs'
      have := h1 r (by rw [← hs', hs]; simp)
      omega
    | cons q post' =>
      have hq := h2 q rfl
      have := split_unique (p := fun n => n.pos < c.stop) (hs'.symm.trans hs) h1 hpre (by omega) (by omega)
      exact ⟨this.1, by rw [this.2.1, this.2.2]⟩
  obtain ⟨rfl, rfl⟩ := hsplit
  have hno : ∀ n ∈ pre', near line (some r) c n = false := by
    intro n hn
    unfold near
    simp only [Bool.or_eq_false_iff, beq_eq_false_iff_ne, Bool.and_eq_false_imp, decide_eq_false_iff_not]
    exact ⟨hown n hn, fun _ => by omega⟩
  rcases choose_cases hch with ⟨k1, k2⟩ | ⟨k1, k2 | k2⟩ | k1
  · exact absurd k2 (by rw [List.head?_cons, hno a (h3 a k1).1]; decide)
  · exact absurd k2 (by rw [List.head?_cons, hno a (List.mem_of_getLast? k1)]; decide)
  · cases k2
  · cases k1; exact ha

/-! ### Comments behind a statement -/

theorem before_rest {next prev : Option Item} {s' : State} : ∀ {rest : List Group} {recent : Option Item} {stack : List Item}
    {found : List (Item × Group)}, before line next prev recent stack found rest = some s' →
    (∃ now, rest = now ++ s'.rest ∧ ∀ c ∈ now, ∀ q ∈ next, c.stop ≤ q.pos) ∧ (∀ n ∈ s'.stack, n ∈ stack) ∧ found <+: s'.found
  | [], recent, stack, found, h => by cases h; exact ⟨⟨[], rfl, nofun⟩, fun _ h => h, List.prefix_rfl⟩
  | c :: rest, recent, stack, found, h => by
    unfold before at h
    split at h
    · rename_i hn
      split at h
      · cases h
      obtain ⟨⟨now, k1, k2⟩, k3, k4⟩ := before_rest h
      refine ⟨⟨c :: now, by rw [k1]; rfl, fun d hd q hq => ?_⟩, fun n hn => pop_mem.2 n (k3 n hn), (List.prefix_append _ _).trans k4⟩
      rcases List.mem_cons.1 hd with rfl | hd
      · rw [show next = some q from hq] at hn
        simpa using hn
      · exact k2 d hd q hq
    · cases h; exact ⟨⟨[], rfl, nofun⟩, fun _ h => h, List.prefix_rfl⟩

theorem before_keeps {q : Item} {prev : Option Item} {s' : State} {rest : List Group} {recent : Option Item} {stack : List Item}
    {found : List (Item × Group)} (h : before line (some q) prev recent stack found rest = some s') (ho : InOrder rest) {c : Group}
    (hc : c ∈ rest) (hq : q.pos < c.stop) : c ∈ s'.rest ∧ InOrder s'.rest := by
  obtain ⟨⟨now, k1, k2⟩, -, -⟩ := before_rest h
  subst k1
  refine ⟨(List.mem_append.1 hc).resolve_left fun hn => ?_, fun d hd => ho.1 d (List.mem_append_right _ hd), (List.pairwise_append.1 ho.2).2.1⟩
  have := k2 c hn q rfl
  omega

theorem pop_head {pos : Nat} : ∀ {s : List Item}, ∀ e ∈ (pop pos s).2.head?, pos < e.stop
  | [] => nofun
  | n :: s => by
    unfold pop
    split
    · exact pop_head
    · rintro e he; cases he; omega

theorem pop_none {pos : Nat} {s : List Item} (h : ∀ e ∈ s.head?, pos < e.stop) : pop pos s = (none, s) := by
  cases s with
  | nil => rfl
  | cons n s =>
    have := h n rfl
    unfold pop
    rw [if_neg (by omega)]

theorem pop_keep {pos : Nat} {r : Item} {S : List Item} (hr : pos < r.stop) : ∀ {ins : List Item},
    ∃ ins', (pop pos (ins ++ r :: S)).2 = ins' ++ r :: S ∧ ∀ n ∈ ins', n ∈ ins
  | [] => ⟨[], by rw [List.nil_append, pop_none (fun e he => by cases he; exact hr)], nofun⟩
  | n :: ins => by
    obtain ⟨ins', h1, h2⟩ := pop_keep (S := S) hr (ins := ins)
    unfold pop
    rw [List.cons_append]
    dsimp only
    split
    · exact ⟨ins', h1, fun m hm => List.mem_cons_of_mem _ (h2 m hm)⟩
    · exact ⟨n :: ins, rfl, fun _ h => h⟩

theorem pop_all {pos : Nat} {r : Item} {S : List Item} (hr : r.stop ≤ pos) (hS : ∀ e ∈ S.head?, pos < e.stop) : ∀ {ins : List Item},
    (∀ n ∈ ins, n.stop ≤ pos) → pop pos (ins ++ r :: S) = (some r, S)
  | [], _ => by
    unfold pop
    rw [List.nil_append]
    dsimp only
    rw [if_pos hr, pop_none hS]; rfl
  | n :: ins, h => by
    unfold pop
    rw [List.cons_append]
    dsimp only
    rw [if_pos (h n (by simp)), pop_all hr hS fun m hm => h m (by simp [hm])]; rfl

/-- While nodes inside of `r` are visited, `r` stays on the stack. -/
theorem before_inside {q r : Item} {prev : Option Item} {S : List Item} {s' : State} (hq : q.pos < r.stop) : ∀ {rest : List Group}
    {recent : Option Item} {ins : List Item} {found : List (Item × Group)}, InOrder rest →
    before line (some q) prev recent (ins ++ r :: S) found rest = some s' →
    ∃ ins', s'.stack = ins' ++ r :: S ∧ ∀ n ∈ ins', n ∈ ins
  | [], recent, ins, found, _, h => by cases h; exact ⟨ins, rfl, fun _ h => h⟩
  | c :: rest, recent, ins, found, ho, h => by
    unfold before at h
    split at h
    · rename_i hn
      have hn : c.stop ≤ q.pos := by simpa using hn
      have := ho.1 c (by simp)
      split at h
      · cases h
      obtain ⟨ins', k1, k2⟩ := pop_keep (pos := c.pos) (r := r) (S := S) (by omega) (ins := ins)
      rw [k1] at h
      obtain ⟨ins'', l1, l2⟩ := before_inside hq ⟨fun d hd => ho.1 d (by simp [hd]), (List.pairwise_cons.1 ho.2).2⟩ h
      exact ⟨ins'', l1, fun n hn => k2 n (l2 n hn)⟩
    · cases h; exact ⟨ins, rfl, fun _ h => h⟩

/-- When all nodes inside of `r` have been visited, the comment behind it is attached to it. -/
theorem before_behind {next prev : Option Item} {r : Item} {c : Group} {S : List Item} {s' : State} (hc : ∀ q ∈ next, c.stop ≤ q.pos)
    (hr : r.stop ≤ c.pos) (hline : near line next c r = true) (hS : ∀ e ∈ S.head?, c.pos < e.stop) : ∀ {rest : List Group}
    {recent : Option Item} {stack : List Item} {found : List (Item × Group)}, InOrder rest → c ∈ rest →
    ((recent = some r ∧ stack = S) ∨ ∃ ins, stack = ins ++ r :: S ∧ ∀ n ∈ ins, n.stop ≤ r.stop) →
    before line next prev recent stack found rest = some s' → (r, c) ∈ s'.found
  | d :: rest, recent, stack, found, ho, hmem, hst, h => by
    have hord : ∀ d' ∈ rest, d.stop ≤ d'.pos := (List.pairwise_cons.1 ho.2).1
    have hlen := ho.1 d (by simp)
    have hdc : d = c ∨ d.stop ≤ c.pos := by
      rcases List.mem_cons.1 hmem with h | h
      · exact .inl h.symm
      · exact .inr (hord c h)
    have hlenc := ho.1 c hmem
    have hdpos : d.pos ≤ c.pos := by rcases hdc with rfl | h <;> omega
    unfold before at h
    rw [if_pos (by
      cases next with
      | none => rfl
      | some q =>
        have := hc q rfl
        simp only [Option.all_some, decide_eq_true_eq]
        rcases hdc with rfl | h <;> omega)] at h
    have hlate : r.stop ≤ d.pos → (pop d.pos stack).1.or recent = some r ∧ (pop d.pos stack).2 = S := by
      intro hd
      have hS' : ∀ e ∈ S.head?, d.pos < e.stop := fun e he => by have := hS e he; omega
      rcases hst with ⟨rfl, rfl⟩ | ⟨ins, rfl, hins⟩
      · rw [pop_none hS']; exact ⟨rfl, rfl⟩
      · rw [pop_all hd hS' fun n hn => Nat.le_trans (hins n hn) hd]; exact ⟨rfl, rfl⟩
    split at h
    · cases h
    rename_i a ha
    rcases hdc with rfl | hdc
    · obtain ⟨e1, e2⟩ := hlate hr
      rw [e1] at ha
      have : choose line next prev (some r) d = some r := by
        unfold choose
        simp [Option.filter, hline]
      rw [this] at ha
      cases ha
      exact (before_rest h).2.2.subset (by simp)
    · have hmem' : c ∈ rest ∨ c = d := (List.mem_cons.1 hmem).symm
      rcases hmem' with hmem' | rfl
      · refine before_behind hc hr hline hS ⟨fun d hd => ho.1 d (by simp [hd]), (List.pairwise_cons.1 ho.2).2⟩ hmem' ?_ h
        by_cases hd : r.stop ≤ d.pos
        · exact .inl (hlate hd)
        · rcases hst with ⟨rfl, rfl⟩ | ⟨ins, rfl, hins⟩
          · refine .inl ?_
            rw [pop_none fun e he => by have := hS e he; omega]; exact ⟨rfl, rfl⟩
          · obtain ⟨ins', k1, k2⟩ := pop_keep (pos := d.pos) (r := r) (S := S) (by omega) (ins := ins)
            exact .inr ⟨ins', k1, fun n hn => hins n (k2 n hn)⟩
      · obtain ⟨e1, e2⟩ := hlate (by omega)
        rw [e1] at ha
        have : choose line next prev (some r) c = some r := by
          unfold choose
          simp [Option.filter, hline]
        rw [this] at ha
        cases ha
        exact (before_rest h).2.2.subset (by simp)

theorem walk_prefix {out : List (Item × Group)} : ∀ {nodes : List Item} {prev : Option Item} {s : State}, walk line prev s nodes = some out →
    s.found <+: out
  | [], prev, s, h => by
    unfold walk at h
    obtain ⟨s', hb, rfl⟩ := Option.map_eq_some_iff.1 h
    exact (before_rest hb).2.2
  | q :: nodes, prev, s, h => by
    unfold walk at h
    split at h
    · cases h
    rename_i s' hb
    exact (before_rest hb).2.2.trans (walk_prefix (s := ⟨s'.recent, if q.group then push q s'.stack else s'.stack, s'.rest, s'.found⟩) h)

theorem walk_inside {out : List (Item × Group)} {r : Item} {c : Group} {S : List Item} {post : List Item}
    (hpost : ∀ q ∈ post.head?, c.stop ≤ q.pos) (hr : r.stop ≤ c.pos) (hline : near line post.head? c r = true) (hS : ∀ e ∈ S.head?, c.pos < e.stop) :
    ∀ {inner : List Item} {prev : Option Item} {s : State}, (∀ n ∈ inner, n.pos < r.stop ∧ n.stop ≤ r.stop) → InOrder s.rest → c ∈ s.rest →
    (∃ ins, s.stack = ins ++ r :: S ∧ ∀ n ∈ ins, n.stop ≤ r.stop) → walk line prev s (inner ++ post) = some out → (r, c) ∈ out
  | [], prev, s, _, ho, hc, hst, h => by
    rw [List.nil_append] at h
    cases post with
    | nil =>
      unfold walk at h
      obtain ⟨s', hb, rfl⟩ := Option.map_eq_some_iff.1 h
      exact before_behind (fun _ h => by cases h) hr hline hS ho hc (.inr hst) hb
    | cons q post =>
      unfold walk at h
      split at h
      · cases h
      rename_i s' hb
      have := before_behind (fun q' hq => hpost q' hq) hr hline hS ho hc (.inr hst) hb
      exact (walk_prefix (s := ⟨s'.recent, if q.group then push q s'.stack else s'.stack, s'.rest, s'.found⟩) h).subset this
  | q :: inner, prev, s, hin, ho, hc, ⟨ins, hst, hins⟩, h => by
    rw [List.cons_append] at h
    unfold walk at h
    split at h
    · cases h
    rename_i s' hb
    obtain ⟨hq1, hq2⟩ := hin q (by simp)
    have hlen := ho.1 c hc
    obtain ⟨hc', ho'⟩ := before_keeps hb ho hc (by omega)
    rw [hst] at hb
    obtain ⟨ins', k1, k2⟩ := before_inside hq1 ho hb
    refine walk_inside (s := ⟨s'.recent, if q.group then push q s'.stack else s'.stack, s'.rest, s'.found⟩) hpost hr hline hS (fun n hn => hin n (List.mem_cons_of_mem _ hn)) ho' hc' ?_ h
    dsimp only
    rw [k1]
    split
    · obtain ⟨ins'', l1, l2⟩ := pop_keep (pos := q.pos) (r := r) (S := S) hq1 (ins := ins')
      refine ⟨q :: ins'', by unfold push; rw [l1]; rfl, fun n hn => ?_⟩
      rcases List.mem_cons.1 hn with rfl | hn
      · exact hq2
      · exact hins n (k2 n (l2 n hn))
    · exact ⟨ins', rfl, fun n hn => hins n (k2 n hn)⟩

theorem walk_until {out : List (Item × Group)} {r : Item} {c : Group} {inner post : List Item} (hg : r.group = true)
    (hin : ∀ n ∈ inner, n.pos < r.stop ∧ n.stop ≤ r.stop) (hpost : ∀ q ∈ post.head?, c.stop ≤ q.pos) (hpos : r.pos < c.stop)
    (hr : r.stop ≤ c.pos) (hline : near line post.head? c r = true) : ∀ {pre : List Item} {prev : Option Item} {s : State},
    (∀ n ∈ pre, n.pos < c.stop) → (∀ n ∈ pre, n.group = true → n.stop ≤ r.pos ∨ c.pos < n.stop) →
    (∀ n ∈ s.stack, n.stop ≤ r.pos ∨ c.pos < n.stop) → InOrder s.rest → c ∈ s.rest →
    walk line prev s (pre ++ r :: (inner ++ post)) = some out → (r, c) ∈ out
  | [], prev, s, _, _, hst, ho, hc, h => by
    rw [List.nil_append] at h
    unfold walk at h
    split at h
    · cases h
    rename_i s' hb
    obtain ⟨hc', ho'⟩ := before_keeps hb ho hc hpos
    refine walk_inside (S := (pop r.pos s'.stack).2) (s := ⟨s'.recent, if r.group then push r s'.stack else s'.stack, s'.rest, s'.found⟩) hpost hr hline ?_ hin ho' hc' ⟨[], by simp [hg, push], nofun⟩ h
    intro e he
    have h1 := pop_head e he
    have h2 := hst e ((before_rest hb).2.1 e (pop_mem.2 e (List.mem_of_mem_head? he)))
    omega
  | q :: pre, prev, s, hpre, hgr, hst, ho, hc, h => by
    rw [List.cons_append] at h
    unfold walk at h
    split at h
    · cases h
    rename_i s' hb
    obtain ⟨hc', ho'⟩ := before_keeps hb ho hc (hpre q (by simp))
    refine walk_until (s := ⟨s'.recent, if q.group then push q s'.stack else s'.stack, s'.rest, s'.found⟩) hg hin hpost hpos hr hline (fun n hn => hpre n (List.mem_cons_of_mem _ hn)) (fun n hn => hgr n (List.mem_cons_of_mem _ hn)) ?_ ho' hc' h
    intro n hn
    dsimp only at hn
    split at hn
    · rename_i hq
      unfold push at hn
      rcases List.mem_cons.1 hn with rfl | hn
      · exact hgr n (by simp) hq
      · exact hst n ((before_rest hb).2.1 n (pop_mem.2 n hn))
    · exact hst n ((before_rest hb).2.1 n hn)

/-- **C56.** A comment behind a statement belongs to it: one that starts on the line on which the statement ends, or on the line below and is
followed by an empty line.  Here `inner` are the nodes inside of the statement, and no larger statement or declaration ends there too (each
one begun before has ended before the statement begins, or ends after the beginning of the comment). -/
theorem behind_attached {nodes : List Item} {cs : List Group} {out : List (Item × Group)} (h : newCommentMap line nodes cs = some out)
    (ho : InOrder cs) {r : Item} {c : Group} (hc : c ∈ cs) {pre inner post : List Item} (hs : nodes = pre ++ r :: (inner ++ post))
    (hg : r.group = true) (hpre : ∀ n ∈ pre, n.pos < c.stop ∧ (n.group = true → n.stop ≤ r.pos ∨ c.pos < n.stop)) (hr : r.pos < r.stop)
    (hin : ∀ n ∈ inner, n.pos < r.stop ∧ n.stop ≤ r.stop) (hafter : r.stop ≤ c.pos) (hpost : ∀ q ∈ post.head?, c.stop ≤ q.pos)
    (hline : Behind line nodes c r) : (r, c) ∈ out := by
  unfold newCommentMap at h
  rw [sorted_eq ho, hs] at h
  have hlen := ho.1 c hc
  have hnear : near line post.head? c r = true := by
    refine (near_iff (pre := pre ++ r :: inner) (by rw [hs]; simp) (fun n hn => ?_) hpost).2 hline.2
    rcases List.mem_append.1 hn with hn | hn
    · exact (hpre n hn).1
    · rcases List.mem_cons.1 hn with rfl | hn
      · omega
      · have := (hin n hn).1; omega
  exact walk_until hg hin hpost (by omega) hafter hnear (fun n hn => (hpre n hn).1) (fun n hn => (hpre n hn).2) (fun _ h => by cases h) ho hc h

/-! ### The comments of a return statement -/

theorem items_are_nodes {nodes : List Item} {cs : List Group} {out : List (Item × Group)} (h : newCommentMap line nodes cs = some out)
    (ho : InOrder cs) (hnd : cs.Nodup) {r : Item} {c : Group} (hc : (r, c) ∈ out) : r ∈ nodes := by
  rcases only_near h ho hnd hc with ⟨pre, post, rfl, -⟩ | ⟨h, -⟩ | ⟨-, h⟩
  · simp
  · exact h
  · exact List.mem_of_getLast? h

theorem singleton_of_nodup {α : Type} {l : List α} {a : α} (h : l.Nodup) (hm : ∀ x, x ∈ l ↔ x = a) : l = [a] := by
  cases l with
  | nil => exact absurd ((hm a).2 rfl) (by simp)
  | cons b l =>
    have hb := (hm b).1 (by simp)
    subst hb
    cases l with
    | nil => rfl
    | cons d l =>
      have := (hm d).1 (by simp)
      subst this
      simp at h

/-- `cmap[node]` lists the groups attached to the node, in the order of the source. -/
theorem groups_sublist {out : List (Item × Group)} (id : Nat) : (groupsOf out id).Sublist (out.map Prod.snd) :=
  List.Sublist.map _ List.filter_sublist

theorem mem_groups {out : List (Item × Group)} {id : Nat} {c : Group} : c ∈ groupsOf out id ↔ ∃ r, r.id = id ∧ (r, c) ∈ out := by
  unfold groupsOf
  simp only [List.mem_map, List.mem_filter, decide_eq_true_eq, Prod.exists, exists_eq_right]
  exact ⟨fun ⟨r, h1, h2⟩ => ⟨r, h2, h1⟩, fun ⟨r, h1, h2⟩ => ⟨r, h2, h1⟩⟩

theorem nodup_eraseDups (l : List Nat) : l.eraseDups.Nodup := by
  generalize hn : l.length = n
  induction n using Nat.strongRecOn generalizing l with
  | _ n ih =>
    cases l with
    | nil => exact .nil
    | cons a l =>
      rw [List.eraseDups_cons]
      refine List.nodup_cons.2 ⟨?_, ih _ ?_ _ rfl⟩
      · rw [List.mem_eraseDups, List.mem_filter]; simp
      · have := List.length_filter_le (fun b => !b == a) l
        rw [List.length_cons] at hn
        omega

/-- **C56.** The comments of all files taken together: a node has the comments its file gives it, if files share no nodes. -/
theorem comments_of_files {outs : List (List (Item × Group))}
    (hids : outs.Pairwise fun a b => ∀ x ∈ a, ∀ y ∈ b, x.1.id ≠ y.1.id) {out : List (Item × Group)} (hout : out ∈ outs) (id : Nat)
    (hid : ∃ x ∈ out, x.1.id = id) : createCommentMap (outs.map entries) id = some (groupsOf out id) := by
  refine (Comments.comment_map _ ?_ id _).2 ⟨entries out, List.mem_map.2 ⟨out, hout, rfl⟩, ?_⟩
  · rw [List.map_flatten, List.map_map]
    have e : (outs.map (List.map Prod.fst ∘ entries)) = outs.map fun out => (out.map fun e => e.1.id).eraseDups := by
      refine List.map_congr_left fun out _ => ?_
      simp [entries, Function.comp_def]
    rw [e]
    clear e hout hid
    unfold List.Nodup
    rw [List.pairwise_flatten]
    refine ⟨?_, ?_⟩
    · intro l hl
      obtain ⟨o, -, rfl⟩ := List.mem_map.1 hl
      exact nodup_eraseDups _
    · refine List.Pairwise.map _ (fun a b hab x hx y hy => ?_) hids
      rw [List.mem_eraseDups, List.mem_map] at hx hy
      obtain ⟨x', hx, rfl⟩ := hx
      obtain ⟨y', hy, rfl⟩ := hy
      exact hab x' hx y' hy
  · refine List.mem_map.2 ⟨id, ?_, rfl⟩
    obtain ⟨x, hx, rfl⟩ := hid
    rw [List.mem_eraseDups, List.mem_map]
    exact ⟨x, hx, rfl⟩

/-- What is read of the comments of a node (`group.Text()` for each, annotation.go:45-48). -/
def textsOf (m : Nat → Option (List Group)) (id : Nat) : List GoString := ((m id).getD []).map fun g => CommentText.text g.comments

/-- **C56.** A comment above a return statement, on lines of its own and with no empty line below, is the annotation of that statement, if
no other comment stands at the statement. -/
theorem annotation_above {outs : List (List (Item × Group))} (hids : outs.Pairwise fun a b => ∀ x ∈ a, ∀ y ∈ b, x.1.id ≠ y.1.id)
    {nodes : List Item} {cs : List Group} {out : List (Item × Group)} (hout : out ∈ outs) (h : newCommentMap line nodes cs = some out)
    (ho : InOrder cs) (hnd : cs.Nodup) {r : Item} {c : Group} (hc : c ∈ cs) (hid : ∀ n ∈ nodes, n.id = r.id → n = r) {pre post : List Item}
    (hs : nodes = pre ++ r :: post) (hpre : ∀ n ∈ pre, n.pos < c.stop) (hr : c.stop ≤ r.pos) (hadj : line r.pos ≤ line c.stop + 1)
    (hown : ∀ n ∈ pre, line n.stop ≠ line c.pos)
    (honly : ∀ d ∈ cs, d ≠ c → ¬ Above nodes d r ∧ ¬ Behind line nodes d r ∧ ¬ AtEnd nodes d r) :
    textsOf (createCommentMap (outs.map entries)) r.id = [CommentText.text c.comments] := by
  have hmem := above_attached h ho hc hs hpre hr hadj hown
  have hgr : groupsOf out r.id = [c] := by
    refine singleton_of_nodup ?_ fun d => ?_
    · exact ((groups_sublist r.id).nodup (by rw [(turn h ho).1]; exact hnd))
    · rw [mem_groups]
      constructor
      · rintro ⟨n, h1, h2⟩
        cases hid n (items_are_nodes h ho hnd h2) h1
        refine Classical.byContradiction fun hne => ?_
        have hd : d ∈ cs := by rw [← (turn h ho).1]; exact List.mem_map.2 ⟨_, h2, rfl⟩
        obtain ⟨k1, k2, k3⟩ := honly d hd hne
        rcases only_near h ho hnd h2 with k | k | k
        · exact k1 k
        · exact k2 k
        · exact k3 k
      · rintro rfl; exact ⟨r, rfl, hmem⟩
  unfold textsOf
  rw [comments_of_files hids hout r.id ⟨_, hmem, rfl⟩, hgr]
  rfl

/-! ## Example

```go
package p

func F() error {
	x()
	// Error Codes = a-error
	return y() // fine
}

func G() error {
	x()
	// Error Codes = a-error

	return y()
}

func H() error { /* Error Codes = a-error */ return y() }

func I() error {
	if x() { return y() } // Error Codes = a-error
	return nil
}
```

Nodes are numbered in the order in which they are visited: 13, 27, 38, 53 and 56 are return statements. -/

def exLine (o : Nat) : Nat := ([0, 10, 11, 28, 33, 59, 79, 81, 82, 99, 104, 130, 131, 143, 145, 146, 204, 205, 222, 270, 282, 284].filter (· ≤ o)).length

def exNodes : List Item :=
  [⟨0, 0, 283, true⟩, ⟨1, 8, 9, false⟩, ⟨2, 11, 80, true⟩, ⟨3, 16, 17, false⟩, ⟨4, 11, 25, false⟩, ⟨5, 17, 19, false⟩,
   ⟨6, 20, 25, false⟩, ⟨7, 20, 25, true⟩, ⟨8, 20, 25, false⟩, ⟨9, 26, 80, true⟩, ⟨10, 29, 32, true⟩, ⟨11, 29, 32, false⟩,
   ⟨12, 29, 30, false⟩, ⟨13, 60, 70, true⟩, ⟨14, 67, 70, false⟩, ⟨15, 67, 68, false⟩, ⟨16, 82, 144, true⟩, ⟨17, 87, 88, false⟩,
   ⟨18, 82, 96, false⟩, ⟨19, 88, 90, false⟩, ⟨20, 91, 96, false⟩, ⟨21, 91, 96, true⟩, ⟨22, 91, 96, false⟩, ⟨23, 97, 144, true⟩,
   ⟨24, 100, 103, true⟩, ⟨25, 100, 103, false⟩, ⟨26, 100, 101, false⟩, ⟨27, 132, 142, true⟩, ⟨28, 139, 142, false⟩,
   ⟨29, 139, 140, false⟩, ⟨30, 146, 203, true⟩, ⟨31, 151, 152, false⟩, ⟨32, 146, 160, false⟩, ⟨33, 152, 154, false⟩,
   ⟨34, 155, 160, false⟩, ⟨35, 155, 160, true⟩, ⟨36, 155, 160, false⟩, ⟨37, 161, 203, true⟩, ⟨38, 191, 201, true⟩,
   ⟨39, 198, 201, false⟩, ⟨40, 198, 199, false⟩, ⟨41, 205, 283, true⟩, ⟨42, 210, 211, false⟩, ⟨43, 205, 219, false⟩,
   ⟨44, 211, 213, false⟩, ⟨45, 214, 219, false⟩, ⟨46, 214, 219, true⟩, ⟨47, 214, 219, false⟩, ⟨48, 220, 283, true⟩,
   ⟨49, 223, 244, true⟩, ⟨50, 226, 229, false⟩, ⟨51, 226, 227, false⟩, ⟨52, 230, 244, true⟩, ⟨53, 232, 242, true⟩,
   ⟨54, 239, 242, false⟩, ⟨55, 239, 240, false⟩, ⟨56, 271, 281, true⟩, ⟨57, 278, 281, false⟩]

def exComments : List Group :=
  [⟨34, 58, [b!"// Error Codes = a-error"]⟩,
   ⟨71, 78, [b!"// fine"]⟩,
   ⟨105, 129, [b!"// Error Codes = a-error"]⟩,
   ⟨163, 190, [b!"/* Error Codes = a-error */"]⟩,
   ⟨245, 269, [b!"// Error Codes = a-error"]⟩]

theorem ex_inOrder : InOrder exComments := by unfold InOrder; decide

def exOut : List (Item × Group) := (newCommentMap exLine exNodes exComments).getD []

theorem ex_ran : newCommentMap exLine exNodes exComments = some exOut := by
  obtain ⟨out, h, -⟩ := attached_once (line := exLine) (nodes := exNodes) (by simp [exNodes]) ex_inOrder
  rw [exOut, h]; rfl

/-- The hypotheses are met: the annotation in `F`, and the comment behind its return statement. -/
theorem ex_above : (⟨13, 60, 70, true⟩, ⟨34, 58, [b!"// Error Codes = a-error"]⟩) ∈ exOut :=
  above_attached ex_ran ex_inOrder (by decide) (pre := exNodes.take 13) (post := exNodes.drop 14) rfl (by decide) (by decide) (by decide) (by decide)

theorem ex_behind : (⟨13, 60, 70, true⟩, ⟨71, 78, [b!"// fine"]⟩) ∈ exOut :=
  behind_attached ex_ran ex_inOrder (by decide) (pre := exNodes.take 13) (inner := (exNodes.drop 14).take 2) (post := exNodes.drop 16) rfl rfl
    (by decide) (by decide) (by decide) (by decide) (by decide) ⟨by decide, .inl (by decide)⟩

/-- … and the comment in `G`, which belongs to the statement above it. -/
theorem ex_below : (⟨24, 100, 103, true⟩, ⟨105, 129, [b!"// Error Codes = a-error"]⟩) ∈ exOut :=
  behind_attached ex_ran ex_inOrder (by decide) (pre := exNodes.take 24) (inner := (exNodes.drop 25).take 2) (post := exNodes.drop 27) rfl rfl
    (by decide) (by decide) (by decide) (by decide) (by decide) ⟨by decide, .inr ⟨by decide, fun q hq => by
      have : Above exNodes ⟨105, 129, [b!"// Error Codes = a-error"]⟩ ⟨27, 132, 142, true⟩ :=
        ⟨exNodes.take 27, exNodes.drop 28, rfl, by decide, by decide⟩
      rw [above_unique hq this]; decide⟩⟩

/-- What the conditions exclude: with an empty line below, the comment belongs to the statement above it (`G`); a comment in a block that
ends on the same line belongs to the block (`H`); and one behind a larger statement that ends with the return statement belongs to the
larger one (`I`).  No return statement but the one in `F` is annotated. -/
theorem ex_elsewhere : (exOut.map fun e => e.1.id) = [13, 13, 24, 37, 49] := by
  rw [exOut, newCommentMap, sorted_eq ex_inOrder]; decide +kernel

end Serum.Props.CommentMap
