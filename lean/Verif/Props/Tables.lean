import Verif.Spec.Tables
import Verif.Lemmas.Py

/-! # Parent-child orders of tables (C45) -/

namespace Brel

theorem WithinTable.snoc {m : TableModel} {p q i : TableItem} (h : WithinTable m p q) (hu : Under m i q) : WithinTable m p i := by
  induction h with
  | refl => exact .under hu .refl
  | under h1 _ ih => exact .under h1 (ih hu)

theorem InTable.under {m : TableModel} {p i : TableItem} (h : InTable m p) (hu : Under m i p) : InTable m i := by
  obtain ⟨t, tab, ht, hw⟩ := h
  exact ⟨t, tab, ht, hw.snoc hu⟩

theorem stated_of {m : TableModel} {i : TableItem} {o : PCOrder} (h : m.orderOf i = some o) (ho : o ≠ .unspecified) : m.stated i = some o := by
  unfold TableModel.stated
  rw [h]
  cases o with
  | unspecified => exact absurd rfl ho
  | _ => rfl

theorem stated_none {m : TableModel} {i : TableItem} (h : m.orderOf i = some .unspecified ∨ m.orderOf i = none) : m.stated i = none := by
  unfold TableModel.stated
  rcases h with h | h <;> rw [h]

/-- The order may have been inherited. -/
def Filled (m : TableModel) (i : TableItem) (a b : PCOrder) : Prop :=
  b = a ∨ (a = .unspecified ∧ b ≠ .unspecified ∧ Inherits m i b ∧ InTable m i)

/-- The state during the propagation. -/
structure OrderInv (m m1 : TableModel) : Prop where
  tables : ∀ l, (m.tables.get? l = none ∧ m1.tables.get? l = none) ∨ ∃ t o, m.tables.get? l = some t ∧ m1.tables.get? l = some { t with order := o } ∧ Filled m (.table l) t.order o
  breakdowns : ∀ l, (m.breakdowns.get? l = none ∧ m1.breakdowns.get? l = none) ∨
    ∃ t o, m.breakdowns.get? l = some t ∧ m1.breakdowns.get? l = some { t with order := o } ∧ Filled m (.breakdown l) t.order o
  nodes : ∀ l, (m.nodes.get? l = none ∧ m1.nodes.get? l = none) ∨ ∃ n, m.nodes.get? l = some n ∧
    (m1.nodes.get? l = some n ∨ (n.order = some .unspecified ∧ ∃ o, m1.nodes.get? l = some { n with order := some o } ∧ Filled m (.node l) .unspecified o))
  labels : m1.tables.keys = m.tables.keys

/-- Nothing is left unspecified. -/
def Ordered (m : TableModel) (i : TableItem) : Prop := m.orderOf i ≠ some .unspecified

theorem orderInv_refl (m : TableModel) : OrderInv m m := by
  refine ⟨?_, ?_, ?_, rfl⟩
  · intro l; cases h : m.tables.get? l with
    | none => exact .inl ⟨rfl, rfl⟩
    | some t => exact .inr ⟨t, t.order, rfl, rfl, .inl rfl⟩
  · intro l; cases h : m.breakdowns.get? l with
    | none => exact .inl ⟨rfl, rfl⟩
    | some t => exact .inr ⟨t, t.order, rfl, rfl, .inl rfl⟩
  · intro l; cases h : m.nodes.get? l with
    | none => exact .inl ⟨rfl, rfl⟩
    | some n => exact .inr ⟨n, rfl, .inl rfl⟩

theorem propagateNode_spec {m : TableModel} : ∀ (k : Nat) (m1 : TableModel) (l : String) (o : PCOrder) (ns : Dict String DefNode),
    OrderInv m m1 → o ≠ .unspecified → (m.stated (.node l) = none → Inherits m (.node l) o) → InTable m (.node l) →
    propagateNode k m1.nodes l o = .ok ns →
    OrderInv m { m1 with nodes := ns } ∧ (∀ i, Ordered m1 i → Ordered { m1 with nodes := ns } i) ∧ ∀ i, WithinTable m (.node l) i → Ordered { m1 with nodes := ns } i := by
  intro k
  induction k with
  | zero => intro m1 l o ns _ _ _ _ h; cases h
  | succ k ih =>
    intro m1 l o ns hinv ho hin hreach h
    -- the list of children, one after the other
    have fold : ∀ (cs : List (String × Int)) (q : PCOrder) (m1 : TableModel) (ns : Dict String DefNode), OrderInv m m1 → q ≠ .unspecified →
        (∀ c ∈ cs, m.nodes.has c.1 = true → (m.stated (.node c.1) = none → Inherits m (.node c.1) q) ∧ InTable m (.node c.1)) →
        cs.foldlM (fun ns c => propagateNode k ns c.1 q) m1.nodes = .ok ns →
        OrderInv m { m1 with nodes := ns } ∧ (∀ i, Ordered m1 i → Ordered { m1 with nodes := ns } i) ∧
          ∀ c ∈ cs, m.nodes.has c.1 = true → ∀ i, WithinTable m (.node c.1) i → Ordered { m1 with nodes := ns } i := by
      intro cs
      induction cs with
      | nil => intro q m1 ns hinv _ _ h; cases h; exact ⟨hinv, fun _ h => h, by intro c hc; cases hc⟩
      | cons c cs ihc =>
        intro q m1 ns hinv hq hc h
        rw [List.foldlM_cons] at h
        cases h1 : propagateNode k m1.nodes c.1 q with
        | error e => rw [h1] at h; cases h
        | ok ns1 =>
          rw [h1] at h
          by_cases hn : m.nodes.has c.1 = true
          · obtain ⟨a, b, d⟩ := ih m1 c.1 q ns1 hinv hq (hc c (by simp) hn).1 (hc c (by simp) hn).2 h1
            obtain ⟨a', b', d'⟩ := ihc q { m1 with nodes := ns1 } ns a hq (fun c hc' => hc c (by simp [hc'])) h
            refine ⟨a', fun i hi => b' i (b i hi), ?_⟩
            intro c' hc' hn' i hi
            rcases List.mem_cons.1 hc' with rfl | hc'
            · exact b' i (d i hi)
            · exact d' c' hc' hn' i hi
          · have hnone : m1.nodes.get? c.1 = none := by
              rcases hinv.nodes c.1 with ⟨-, h'⟩ | ⟨n, hn', -⟩
              · exact h'
              · rw [Dict.has_eq, hn'] at hn; exact absurd rfl hn
            have : ns1 = m1.nodes := by
              cases k with
              | zero => cases h1
              | succ k => rw [propagateNode, hnone] at h1; cases h1; rfl
            subst this
            obtain ⟨a', b', d'⟩ := ihc q m1 ns hinv hq (fun c hc' => hc c (by simp [hc'])) h
            refine ⟨a', b', ?_⟩
            intro c' hc' hn' i hi
            rcases List.mem_cons.1 hc' with rfl | hc'
            · exact absurd hn' hn
            · exact d' c' hc' hn' i hi
    rw [propagateNode] at h
    rcases hinv.nodes l with ⟨h0, h1⟩ | ⟨n, h0, h1⟩
    · rw [h1] at h
      cases h
      refine ⟨hinv, fun _ h => h, ?_⟩
      intro i hi
      have : i = .node l := by
        cases hi with
        | refl => rfl
        | under hu _ => cases hu with
          | child hp _ _ => rw [h0] at hp; cases hp
      subst this
      intro he
      unfold TableModel.orderOf at he
      dsimp only at he
      rw [h1] at he
      cases he
    -- the node: what it is now, what it becomes and what it hands on
    · obtain ⟨n1, hn1, hch, mine, hmine, hset, hpass, hpo, hne⟩ : ∃ n1, m1.nodes.get? l = some n1 ∧ n1.children = n.children ∧
          ∃ mine, (if n1.order = some .unspecified then some o else n1.order) = mine ∧
            OrderInv m { m1 with nodes := m1.nodes.set l { n1 with order := mine } } ∧ Inherits m (.node l) (mine.getD o) ∧ mine.getD o ≠ .unspecified ∧ mine ≠ some .unspecified := by
        -- replacing an entry keeps the invariant
        have upd : ∀ (x : DefNode), (x = n ∨ (n.order = some .unspecified ∧ ∃ o, x = { n with order := some o } ∧ Filled m (.node l) .unspecified o)) →
            OrderInv m { m1 with nodes := m1.nodes.set l x } := by
          intro x hx
          refine ⟨hinv.tables, hinv.breakdowns, ?_, hinv.labels⟩
          intro l'
          show _ ∨ ∃ n, _ ∧ ((m1.nodes.set l x).get? l' = _ ∨ (_ ∧ ∃ o, (m1.nodes.set l x).get? l' = _ ∧ _))
          by_cases e : l = l'
          · subst e
            right
            refine ⟨n, h0, ?_⟩
            rw [Dict.get?_set, if_pos rfl]
            rcases hx with rfl | ⟨hu, o, rfl, hf⟩
            · exact .inl rfl
            · exact .inr ⟨hu, o, rfl, hf⟩
          · rw [Dict.get?_set, if_neg e]
            exact hinv.nodes l'
        have ord : m.orderOf (.node l) = n.order := by
          show (m.nodes.get? l).bind (·.order) = _; rw [h0]; rfl
        rcases h1 with h1 | ⟨hu, o', h1, hf⟩
        · refine ⟨n, h1, rfl, _, rfl, ?_⟩
          by_cases hun : n.order = some .unspecified
          · rw [if_pos hun]
            have hih := hin (stated_none (.inl (ord.trans hun)))
            exact ⟨upd _ (.inr ⟨hun, o, rfl, .inr ⟨rfl, ho, hih, hreach⟩⟩), hih, ho, by intro e; cases e; exact ho rfl⟩
          · rw [if_neg hun]
            refine ⟨upd _ (.inl rfl), ?_, ?_, hun⟩
            · cases hno : n.order with
              | none => exact hin (stated_none (.inr (ord.trans hno)))
              | some p => exact .own (stated_of (ord.trans hno) (by rintro rfl; exact hun hno))
            · cases hno : n.order with
              | none => exact ho
              | some p => rintro rfl; exact hun hno
        · refine ⟨_, h1, rfl, _, rfl, ?_⟩
          dsimp only
          by_cases hun : o' = .unspecified
          · subst hun
            rw [if_pos rfl]
            have hih := hin (stated_none (.inl (ord.trans hu)))
            exact ⟨upd _ (.inr ⟨hu, o, rfl, .inr ⟨rfl, ho, hih, hreach⟩⟩), hih, ho, by intro e; cases e; exact ho rfl⟩
          · rw [if_neg (by intro e; cases e; exact hun rfl)]
            refine ⟨upd _ (.inr ⟨hu, o', rfl, hf⟩), ?_, hun, by intro e; cases e; exact hun rfl⟩
            rcases hf with hf | ⟨-, -, hf, -⟩
            · exact absurd hf hun
            · exact hf
      rw [hn1] at h
      change n1.children.foldlM (fun ns c => propagateNode k ns c.1 ((if n1.order = some .unspecified then some o else n1.order).getD o))
        (m1.nodes.set l { n1 with order := if n1.order = some .unspecified then some o else n1.order }) = .ok ns at h
      rw [hmine] at h
      obtain ⟨a, b, d⟩ := fold n1.children (mine.getD o) { m1 with nodes := m1.nodes.set l { n1 with order := mine } } ns hset hpo (by
        intro c hc hn
        have hu : Under m (.node c.1) (.node l) := .child h0 (List.mem_map_of_mem (hch ▸ hc)) hn
        exact ⟨fun hs => .above hu hs hpass, hreach.under hu⟩) h
      have first : ∀ i, Ordered m1 i → Ordered { m1 with nodes := m1.nodes.set l { n1 with order := mine } } i := by
        intro i hi
        cases i with
        | table t => exact hi
        | breakdown t => exact hi
        | node t =>
          intro he
          change ((m1.nodes.set l { n1 with order := mine }).get? t).bind (·.order) = _ at he
          rw [Dict.get?_set] at he
          by_cases e : l = t
          · rw [if_pos e] at he; exact hne he
          · rw [if_neg e] at he; exact hi he
      have self : Ordered { m1 with nodes := m1.nodes.set l { n1 with order := mine } } (.node l) := by
        intro he
        change ((m1.nodes.set l { n1 with order := mine }).get? l).bind (·.order) = _ at he
        rw [Dict.get?_set, if_pos rfl] at he
        exact hne he
      refine ⟨a, fun i hi => b i (first i hi), ?_⟩
      intro i hi
      cases hi with
      | refl => exact b _ self
      | under hu hw => cases hu with
        | child hp hc hn =>
          rw [h0] at hp
          cases hp
          obtain ⟨c, hcm, rfl⟩ := List.mem_map.1 hc
          exact d c (hch ▸ hcm) hn i hw

theorem propagateBreakdown_spec {m : TableModel} (k : Nat) (m1 m2 : TableModel) (l : String) (o : PCOrder)
    (hinv : OrderInv m m1) (ho : o ≠ .unspecified) (hin : m.stated (.breakdown l) = none → Inherits m (.breakdown l) o) (hreach : InTable m (.breakdown l))
    (h : propagateBreakdown k m1 l o = .ok m2) :
    OrderInv m m2 ∧ (∀ i, Ordered m1 i → Ordered m2 i) ∧ ∀ i, WithinTable m (.breakdown l) i → Ordered m2 i := by
  unfold propagateBreakdown at h
  rcases hinv.breakdowns l with ⟨h0, h1⟩ | ⟨b, o', h0, h1, hf⟩
  · rw [h1] at h
    cases h
    refine ⟨hinv, fun _ h => h, ?_⟩
    intro i hi
    have : i = .breakdown l := by
      cases hi with
      | refl => rfl
      | under hu _ => cases hu with
        | root hp _ _ => rw [h0] at hp; cases hp
    subst this
    intro he
    unfold TableModel.orderOf at he
    dsimp only at he
    rw [h1] at he
    cases he
  · rw [h1] at h
    dsimp only at h
    generalize hm : (if o' = PCOrder.unspecified then o else o') = mine at h
    have ord : m.orderOf (.breakdown l) = some b.order := by
      show (m.breakdowns.get? l).map (·.order) = _; rw [h0]; rfl
    have hmine : mine ≠ .unspecified ∧ Inherits m (.breakdown l) mine ∧ Filled m (.breakdown l) b.order mine := by
      by_cases hu : o' = .unspecified
      · rw [if_pos hu] at hm; subst hm
        have hb : b.order = .unspecified := by
          rcases hf with hf | ⟨hf, -⟩
          · rw [← hf, hu]
          · exact hf
        have hi := hin (stated_none (.inl (ord.trans (by rw [hb]))))
        exact ⟨ho, hi, .inr ⟨hb, ho, hi, hreach⟩⟩
      · rw [if_neg hu] at hm; subst hm
        refine ⟨hu, ?_, hf⟩
        rcases hf with hf | ⟨-, -, hf, -⟩
        · exact .own (stated_of (ord.trans (by rw [hf])) hu)
        · exact hf
    obtain ⟨hmu, hmi, hmf⟩ := hmine
    -- the roots
    have fold : ∀ (cs : List (String × Int)) (m1 : TableModel) (ns : Dict String DefNode), (∀ c ∈ cs, c ∈ b.roots) → OrderInv m m1 →
        cs.foldlM (fun ns c => propagateNode k ns c.1 mine) m1.nodes = .ok ns →
        OrderInv m { m1 with nodes := ns } ∧ (∀ i, Ordered m1 i → Ordered { m1 with nodes := ns } i) ∧
          ∀ c ∈ cs, m.nodes.has c.1 = true → ∀ i, WithinTable m (.node c.1) i → Ordered { m1 with nodes := ns } i := by
      intro cs
      induction cs with
      | nil => intro m1 ns _ hinv h; cases h; exact ⟨hinv, fun _ h => h, by intro c hc; cases hc⟩
      | cons c cs ihc =>
        intro m1 ns hsub hinv h
        rw [List.foldlM_cons] at h
        cases h1 : propagateNode k m1.nodes c.1 mine with
        | error e => rw [h1] at h; cases h
        | ok ns1 =>
          rw [h1] at h
          by_cases hn : m.nodes.has c.1 = true
          · have hu : Under m (.node c.1) (.breakdown l) := .root h0 (List.mem_map_of_mem (hsub c (by simp))) hn
            obtain ⟨a, b, d⟩ := propagateNode_spec k m1 c.1 mine ns1 hinv hmu (fun hs => .above hu hs hmi) (hreach.under hu) h1
            obtain ⟨a', b', d'⟩ := ihc { m1 with nodes := ns1 } ns (fun c hc' => hsub c (by simp [hc'])) a h
            refine ⟨a', fun i hi => b' i (b i hi), ?_⟩
            intro c' hc' hn' i hi
            rcases List.mem_cons.1 hc' with rfl | hc'
            · exact b' i (d i hi)
            · exact d' c' hc' hn' i hi
          · have hnone : m1.nodes.get? c.1 = none := by
              rcases hinv.nodes c.1 with ⟨-, h'⟩ | ⟨n, hn', -⟩
              · exact h'
              · rw [Dict.has_eq, hn'] at hn; exact absurd rfl hn
            have : ns1 = m1.nodes := by
              cases k with
              | zero => cases h1
              | succ k => rw [propagateNode, hnone] at h1; cases h1; rfl
            subst this
            obtain ⟨a', b', d'⟩ := ihc m1 ns (fun c hc' => hsub c (by simp [hc'])) hinv h
            refine ⟨a', b', ?_⟩
            intro c' hc' hn' i hi
            rcases List.mem_cons.1 hc' with rfl | hc'
            · exact absurd hn' hn
            · exact d' c' hc' hn' i hi
    cases hns : b.roots.foldlM (fun ns c => propagateNode k ns c.1 mine) m1.nodes with
    | error e => rw [hns] at h; cases h
    | ok ns =>
      rw [hns] at h
      have h : m2 = { m1 with breakdowns := m1.breakdowns.set l { b with order := mine }, nodes := ns } := by cases h; rfl
      subst h
      obtain ⟨a, c, d⟩ := fold b.roots m1 ns (fun _ h => h) hinv hns
      have step : ∀ i, Ordered { m1 with nodes := ns } i → Ordered { m1 with breakdowns := m1.breakdowns.set l { b with order := mine }, nodes := ns } i := by
        intro i hi
        cases i with
        | table t => exact hi
        | node t => exact hi
        | breakdown t =>
          intro he
          change ((m1.breakdowns.set l { b with order := mine }).get? t).map (·.order) = _ at he
          rw [Dict.get?_set] at he
          by_cases e : l = t
          · rw [if_pos e] at he; cases he; exact hmu rfl
          · rw [if_neg e] at he; exact hi he
      refine ⟨⟨a.tables, ?_, a.nodes, a.labels⟩, fun i hi => step i (c i hi), ?_⟩
      · intro l'
        show _ ∨ ∃ t o, _ ∧ (m1.breakdowns.set l { b with order := mine }).get? l' = _ ∧ _
        by_cases e : l = l'
        · subst e
          exact .inr ⟨b, mine, h0, by rw [Dict.get?_set, if_pos rfl], hmf⟩
        · rw [Dict.get?_set, if_neg e]
          exact hinv.breakdowns l'
      · intro i hi
        cases hi with
        | refl =>
          intro he
          change ((m1.breakdowns.set l { b with order := mine }).get? l).map (·.order) = _ at he
          rw [Dict.get?_set, if_pos rfl] at he
          cases he; exact hmu rfl
        | under hu hw => cases hu with
          | root hp hc hn =>
            rw [h0] at hp
            cases hp
            obtain ⟨c, hcm, rfl⟩ := List.mem_map.1 hc
            exact step i (d c hcm hn i hw)

theorem propagateTable_spec {m : TableModel} (k : Nat) (m1 m2 : TableModel) (l : String) (hinv : OrderInv m m1) (h : propagateTable k m1 l = .ok m2) :
    OrderInv m m2 ∧ (∀ i, Ordered m1 i → Ordered m2 i) ∧ ∀ tab, m.tables.get? l = some tab → ∀ i, WithinTable m (.table l) i → Ordered m2 i := by
  unfold propagateTable at h
  rcases hinv.tables l with ⟨h0, h1⟩ | ⟨t, o', h0, h1, hf⟩
  · rw [h1] at h
    cases h
    exact ⟨hinv, fun _ h => h, by intro tab ht; rw [h0] at ht; cases ht⟩
  · rw [h1] at h
    dsimp only at h
    generalize hm : (if o' = PCOrder.unspecified then PCOrder.parentFirst else o') = mine at h
    have ord : m.orderOf (.table l) = some t.order := by
      show (m.tables.get? l).map (·.order) = _; rw [h0]; rfl
    have hreach : InTable m (.table l) := ⟨l, t, h0, .refl⟩
    have hmine : mine ≠ .unspecified ∧ Inherits m (.table l) mine ∧ Filled m (.table l) t.order mine := by
      by_cases hu : o' = .unspecified
      · rw [if_pos hu] at hm; subst hm
        have hb : t.order = .unspecified := by
          rcases hf with hf | ⟨hf, -⟩
          · rw [← hf, hu]
          · exact hf
        have hi : Inherits m (.table l) .parentFirst := .top (stated_none (.inl (ord.trans (by rw [hb]))))
        exact ⟨by decide, hi, .inr ⟨hb, by decide, hi, hreach⟩⟩
      · rw [if_neg hu] at hm; subst hm
        refine ⟨hu, ?_, hf⟩
        rcases hf with hf | ⟨-, -, hf, -⟩
        · exact .own (stated_of (ord.trans (by rw [hf])) hu)
        · exact hf
    obtain ⟨hmu, hmi, hmf⟩ := hmine
    have fold : ∀ (cs : List (String × Int)) (m1 m2 : TableModel), (∀ c ∈ cs, c ∈ t.xs ++ t.ys ++ t.zs) → OrderInv m m1 →
        cs.foldlM (fun m c => propagateBreakdown k m c.1 mine) m1 = .ok m2 →
        OrderInv m m2 ∧ (∀ i, Ordered m1 i → Ordered m2 i) ∧ ∀ c ∈ cs, m.breakdowns.has c.1 = true → ∀ i, WithinTable m (.breakdown c.1) i → Ordered m2 i := by
      intro cs
      induction cs with
      | nil => intro m1 m2 _ hinv h; cases h; exact ⟨hinv, fun _ h => h, by intro c hc; cases hc⟩
      | cons c cs ihc =>
        intro m1 m2 hsub hinv h
        rw [List.foldlM_cons] at h
        cases h1 : propagateBreakdown k m1 c.1 mine with
        | error e => rw [h1] at h; cases h
        | ok m3 =>
          rw [h1] at h
          by_cases hn : m.breakdowns.has c.1 = true
          · have hu : Under m (.breakdown c.1) (.table l) := .breakdown h0 (List.mem_map_of_mem (hsub c (by simp))) hn
            obtain ⟨a, b, d⟩ := propagateBreakdown_spec k m1 m3 c.1 mine hinv hmu (fun hs => .above hu hs hmi) (hreach.under hu) h1
            obtain ⟨a', b', d'⟩ := ihc m3 m2 (fun c hc' => hsub c (by simp [hc'])) a h
            refine ⟨a', fun i hi => b' i (b i hi), ?_⟩
            intro c' hc' hn' i hi
            rcases List.mem_cons.1 hc' with rfl | hc'
            · exact b' i (d i hi)
            · exact d' c' hc' hn' i hi
          · have hnone : m1.breakdowns.get? c.1 = none := by
              rcases hinv.breakdowns c.1 with ⟨-, h'⟩ | ⟨n, _, hn', -⟩
              · exact h'
              · rw [Dict.has_eq, hn'] at hn; exact absurd rfl hn
            have : m3 = m1 := by
              unfold propagateBreakdown at h1; rw [hnone] at h1; cases h1; rfl
            subst this
            obtain ⟨a', b', d'⟩ := ihc m3 m2 (fun c hc' => hsub c (by simp [hc'])) hinv h
            refine ⟨a', b', ?_⟩
            intro c' hc' hn' i hi
            rcases List.mem_cons.1 hc' with rfl | hc'
            · exact absurd hn' hn
            · exact d' c' hc' hn' i hi
    have hset : OrderInv m { m1 with tables := m1.tables.set l { t with order := mine } } := by
      refine ⟨?_, hinv.breakdowns, hinv.nodes, ?_⟩
      · intro l'
        show _ ∨ ∃ t' o, _ ∧ (m1.tables.set l { t with order := mine }).get? l' = _ ∧ _
        by_cases e : l = l'
        · subst e
          exact .inr ⟨t, mine, h0, by rw [Dict.get?_set, if_pos rfl], hmf⟩
        · rw [Dict.get?_set, if_neg e]
          exact hinv.tables l'
      · show (m1.tables.set l _).keys = _
        rw [Dict.keys_set, ← hinv.labels]
        unfold appendNew
        rw [if_pos]
        apply (Dict.has_iff_mem_keys m1.tables l).1
        rw [Dict.has_eq, h1]; rfl
    have step : ∀ i, Ordered m1 i → Ordered { m1 with tables := m1.tables.set l { t with order := mine } } i := by
      intro i hi
      cases i with
      | breakdown t => exact hi
      | node t => exact hi
      | table t' =>
        intro he
        change ((m1.tables.set l { t with order := mine }).get? t').map (·.order) = _ at he
        rw [Dict.get?_set] at he
        by_cases e : l = t'
        · rw [if_pos e] at he; cases he; exact hmu rfl
        · rw [if_neg e] at he; exact hi he
    obtain ⟨a, c, d⟩ := fold (t.xs ++ t.ys ++ t.zs) _ m2 (fun _ h => h) hset h
    refine ⟨a, fun i hi => c i (step i hi), ?_⟩
    intro tab ht i hi
    cases hi with
    | refl =>
      apply c
      intro he
      change ((m1.tables.set l { t with order := mine }).get? l).map (·.order) = _ at he
      rw [Dict.get?_set, if_pos rfl] at he
      cases he; exact hmu rfl
    | under hu hw => cases hu with
      | breakdown hp hc hn =>
        rw [h0] at hp
        cases hp
        obtain ⟨c, hcm, rfl⟩ := List.mem_map.1 hc
        exact d c hcm hn i hw

theorem propagateAll_spec {m m' : TableModel} {k : Nat} (h : propagateAll k m = .ok m') : OrderInv m m' ∧ ∀ i, InTable m i → Ordered m' i := by
  have fold : ∀ (ls : List String) (m1 : TableModel), OrderInv m m1 → ls.foldlM (propagateTable k) m1 = .ok m' →
      OrderInv m m' ∧ (∀ i, Ordered m1 i → Ordered m' i) ∧ ∀ l ∈ ls, ∀ tab, m.tables.get? l = some tab → ∀ i, WithinTable m (.table l) i → Ordered m' i := by
    intro ls
    induction ls with
    | nil => intro m1 hinv h; cases h; exact ⟨hinv, fun _ h => h, by intro c hc; cases hc⟩
    | cons l ls ih =>
      intro m1 hinv h
      rw [List.foldlM_cons] at h
      cases h1 : propagateTable k m1 l with
      | error e => rw [h1] at h; cases h
      | ok m2 =>
        rw [h1] at h
        obtain ⟨a, b, c⟩ := propagateTable_spec k m1 m2 l hinv h1
        obtain ⟨a', b', c'⟩ := ih m2 a h
        refine ⟨a', fun i hi => b' i (b i hi), ?_⟩
        intro l' hl' tab ht i hi
        rcases List.mem_cons.1 hl' with rfl | hl'
        · exact b' i (c tab ht i hi)
        · exact c' l' hl' tab ht i hi
  obtain ⟨a, -, c⟩ := fold m.tables.keys m (orderInv_refl m) h
  refine ⟨a, ?_⟩
  rintro i ⟨t, tab, ht, hw⟩
  refine c t ?_ tab ht i hw
  apply (Dict.has_iff_mem_keys m.tables t).1
  rw [Dict.has_eq, ht]; rfl

/-- C45: reading the tables of a link changes nothing but parent-child orders after resources and arcs are read; then every breakdown and every closed node that belongs to a
table has the order it states, otherwise one inherited from above; everything else keeps its order. -/
theorem C45_inherited (dig : Char → Option Nat) (env : TableEnv) (k : Nat) (x : XNode) (m' : TableModel) (h : parseTableLinkbase dig env k x = .ok m') :
    ∃ m, readTableLinkbase dig env x = .ok m ∧ SameTables m m' ∧
      (∀ i o, InTable m i → m'.orderOf i = some o → o ≠ .unspecified ∧ Inherits m i o) ∧
      (∀ i, ¬ InTable m i → m'.orderOf i = m.orderOf i) ∧
      (∀ i o, m.stated i = some o → m'.orderOf i = some o) := by
  unfold parseTableLinkbase at h
  cases hr : readTableLinkbase dig env x with
  | error e => rw [hr] at h; cases h
  | ok m =>
    rw [hr] at h
    obtain ⟨hinv, hord⟩ := propagateAll_spec (show propagateAll k m = .ok m' from h)
    -- what happened to each order
    have change : ∀ i, m'.orderOf i = m.orderOf i ∨ (m.orderOf i = some .unspecified ∧ ∃ o, m'.orderOf i = some o ∧ o ≠ .unspecified ∧ Inherits m i o ∧ InTable m i) := by
      intro i
      cases i with
      | table l =>
        rcases hinv.tables l with ⟨h0, h1⟩ | ⟨t, o, h0, h1, hf⟩ <;> simp only [TableModel.orderOf, h0, h1]
        · exact .inl trivial
        · rcases hf with rfl | ⟨hu, a, b, c⟩
          · exact .inl rfl
          · exact .inr ⟨by simp [hu], o, rfl, a, b, c⟩
      | breakdown l =>
        rcases hinv.breakdowns l with ⟨h0, h1⟩ | ⟨t, o, h0, h1, hf⟩ <;> simp only [TableModel.orderOf, h0, h1]
        · exact .inl trivial
        · rcases hf with rfl | ⟨hu, a, b, c⟩
          · exact .inl rfl
          · exact .inr ⟨by simp [hu], o, rfl, a, b, c⟩
      | node l =>
        rcases hinv.nodes l with ⟨h0, h1⟩ | ⟨n, h0, h1⟩
        · simp only [TableModel.orderOf, h0, h1]; exact .inl trivial
        · rcases h1 with h1 | ⟨hu, o, h1, hf⟩ <;> simp only [TableModel.orderOf, h0, h1]
          · exact .inl trivial
          · rcases hf with rfl | ⟨-, a, b, c⟩
            · exact .inl (by simp [hu])
            · exact .inr ⟨by simp [hu], o, rfl, a, b, c⟩
    refine ⟨m, rfl, ?_, ?_, ?_, ?_⟩
    · refine ⟨?_, ?_, ?_, hinv.labels⟩
      · intro l; rcases hinv.tables l with ⟨h0, h1⟩ | ⟨t, o, h0, h1, -⟩ <;> rw [h0, h1] <;> rfl
      · intro l; rcases hinv.breakdowns l with ⟨h0, h1⟩ | ⟨t, o, h0, h1, -⟩ <;> rw [h0, h1] <;> rfl
      · intro l
        rcases hinv.nodes l with ⟨h0, h1⟩ | ⟨n, h0, h1⟩
        · rw [h0, h1]
        · rcases h1 with h1 | ⟨-, o, h1, -⟩ <;> rw [h0, h1] <;> rfl
    · intro i o hi ho
      have hne : o ≠ .unspecified := by rintro rfl; exact hord i hi ho
      refine ⟨hne, ?_⟩
      rcases change i with hc | ⟨-, o', ho', -, hin, -⟩
      · exact .own (stated_of (hc ▸ ho) hne)
      · rw [ho] at ho'; cases ho'; exact hin
    · intro i hi
      rcases change i with hc | ⟨-, -, -, -, -, hr⟩
      · exact hc
      · exact absurd hr hi
    · intro i o hs
      have : m.orderOf i = some o ∧ o ≠ .unspecified := by
        unfold TableModel.stated at hs
        split at hs <;> simp_all
        · cases hs; decide
        · cases hs; decide
      rcases change i with hc | ⟨hu, -⟩
      · rw [hc, this.1]
      · rw [this.1] at hu; cases hu; exact absurd rfl this.2

/-- C45: where no item has two items above it, the inherited order is the one of the nearest item above that states one, and there is no other. -/
theorem C45_nearest (m : TableModel) (hu : ∀ i p q, Under m i p → Under m i q → p = q) (i : TableItem) (o o' : PCOrder) (h : Inherits m i o) (h' : Inherits m i o') : o = o' := by
  induction h with
  | own hs =>
    cases h' with
    | own hs' => rw [hs] at hs'; cases hs'; rfl
    | top hs' => rw [hs] at hs'; cases hs'
    | above _ hs' _ => rw [hs] at hs'; cases hs'
  | top hs =>
    cases h' with
    | own hs' => rw [hs] at hs'; cases hs'
    | top => rfl
    | above hp _ _ => cases hp
  | above hp hs _ ih =>
    cases h' with
    | own hs' => rw [hs] at hs'; cases hs'
    | top => cases hp
    | above hp' _ hi' => exact ih (hu _ _ _ hp hp' ▸ hi')

/-! ## When the propagation ends -/

/-- What a node is followed by. -/
def childrenOf (ns : Dict String DefNode) (l : String) : Option (List (String × Int)) := (ns.get? l).map (·.children)

theorem propagateNode_children : ∀ (k : Nat) (ns ns' : Dict String DefNode) (l : String) (o : PCOrder), propagateNode k ns l o = .ok ns' → ∀ l', childrenOf ns' l' = childrenOf ns l' := by
  intro k
  induction k with
  | zero => intro ns ns' l o h; cases h
  | succ k ih =>
    intro ns ns' l o h
    rw [propagateNode] at h
    cases hn : ns.get? l with
    | none => rw [hn] at h; cases h; intro l'; rfl
    | some n =>
      rw [hn] at h
      dsimp only at h
      have fold : ∀ (cs : List (String × Int)) (ns : Dict String DefNode) (o : PCOrder), cs.foldlM (fun ns c => propagateNode k ns c.1 o) ns = .ok ns' →
          ∀ l', childrenOf ns' l' = childrenOf ns l' := by
        intro cs
        induction cs with
        | nil => intro ns o h; cases h; intro l'; rfl
        | cons c cs ihc =>
          intro ns o h l'
          rw [List.foldlM_cons] at h
          cases h1 : propagateNode k ns c.1 o with
          | error _ => rw [h1] at h; cases h
          | ok ns1 =>
            rw [h1] at h
            rw [ihc ns1 o h l', ih _ _ _ _ h1 l']
      intro l'
      rw [fold _ _ _ h l']
      unfold childrenOf
      rw [Dict.get?_set]
      by_cases e : l = l'
      · subst e; rw [if_pos rfl, hn]; rfl
      · rw [if_neg e]

theorem propagateNode_error : ∀ (k : Nat) (ns : Dict String DefNode) (l : String) (o : PCOrder) (e : PyErr), propagateNode k ns l o = .error e → e = .recursionError := by
  intro k
  induction k with
  | zero => intro ns l o e h; cases h; rfl
  | succ k ih =>
    intro ns l o e h
    rw [propagateNode] at h
    cases hn : ns.get? l with
    | none => rw [hn] at h; cases h
    | some n =>
      rw [hn] at h
      dsimp only at h
      have fold : ∀ (cs : List (String × Int)) (ns : Dict String DefNode) (o : PCOrder), cs.foldlM (fun ns c => propagateNode k ns c.1 o) ns = .error e → e = .recursionError := by
        intro cs
        induction cs with
        | nil => intro ns o h; cases h
        | cons c cs ihc =>
          intro ns o h
          rw [List.foldlM_cons] at h
          cases h1 : propagateNode k ns c.1 o with
          | error e' => rw [h1] at h; cases h; exact ih _ _ _ _ h1
          | ok ns1 => rw [h1] at h; exact ihc ns1 o h
      exact fold _ _ _ h

theorem propagateNode_ends (rank : String → Nat) : ∀ (k : Nat) (ns : Dict String DefNode) (l : String) (o : PCOrder),
    (∀ p cs, childrenOf ns p = some cs → ∀ c ∈ cs, rank c.1 < rank p) → rank l < k → ∃ ns', propagateNode k ns l o = .ok ns' := by
  intro k
  induction k with
  | zero => intro ns l o _ h; omega
  | succ k ih =>
    intro ns l o hr hk
    rw [propagateNode]
    cases hn : ns.get? l with
    | none => exact ⟨ns, rfl⟩
    | some n =>
      dsimp only
      have fold : ∀ (cs : List (String × Int)) (ns : Dict String DefNode) (o : PCOrder), (∀ p cs, childrenOf ns p = some cs → ∀ c ∈ cs, rank c.1 < rank p) → (∀ c ∈ cs, rank c.1 < k) →
          ∃ ns', cs.foldlM (fun ns c => propagateNode k ns c.1 o) ns = .ok ns' := by
        intro cs
        induction cs with
        | nil => intro ns o _ _; exact ⟨ns, rfl⟩
        | cons c cs ihc =>
          intro ns o hr hc
          obtain ⟨ns1, h1⟩ := ih ns c.1 o hr (hc c (by simp))
          obtain ⟨ns2, h2⟩ := ihc ns1 o (fun p cs hp => hr p cs (by rw [← propagateNode_children k _ _ _ _ h1 p]; exact hp)) (fun c hc' => hc c (by simp [hc']))
          exact ⟨ns2, by rw [List.foldlM_cons, h1]; exact h2⟩
      apply fold
      · intro p cs hp
        apply hr p cs
        rw [← hp]
        unfold childrenOf
        rw [Dict.get?_set]
        by_cases e : l = p
        · subst e; rw [if_pos rfl, hn]; rfl
        · rw [if_neg e]
      · intro c hc
        have := hr l n.children (by unfold childrenOf; rw [hn]; rfl) c hc
        omega

theorem propagateBreakdown_children {k : Nat} {m m' : TableModel} {l : String} {o : PCOrder} (h : propagateBreakdown k m l o = .ok m') (l' : String) :
    childrenOf m'.nodes l' = childrenOf m.nodes l' ∧ (m'.breakdowns.get? l').map (·.roots) = (m.breakdowns.get? l').map (·.roots) := by
  unfold propagateBreakdown at h
  cases hb : m.breakdowns.get? l with
  | none => rw [hb] at h; cases h; exact ⟨rfl, rfl⟩
  | some b =>
    rw [hb] at h
    dsimp only at h
    generalize (if b.order = PCOrder.unspecified then o else b.order) = mine at h
    cases h1 : b.roots.foldlM (fun ns c => propagateNode k ns c.1 mine) m.nodes with
    | error _ => rw [h1] at h; cases h
    | ok ns =>
      rw [h1] at h
      have h : m' = { m with breakdowns := m.breakdowns.set l { b with order := mine }, nodes := ns } := by cases h; rfl
      subst h
      have fold : ∀ (cs : List (String × Int)) (ns0 : Dict String DefNode), cs.foldlM (fun ns c => propagateNode k ns c.1 mine) ns0 = .ok ns → childrenOf ns l' = childrenOf ns0 l' := by
        intro cs
        induction cs with
        | nil => intro ns0 h; cases h; rfl
        | cons c cs ih =>
          intro ns0 h
          rw [List.foldlM_cons] at h
          cases h1 : propagateNode k ns0 c.1 mine with
          | error _ => rw [h1] at h; cases h
          | ok ns1 => rw [h1] at h; rw [ih ns1 h, propagateNode_children k _ _ _ _ h1 l']
      refine ⟨fold _ _ h1, ?_⟩
      show ((m.breakdowns.set l { b with order := mine }).get? l').map (·.roots) = _
      rw [Dict.get?_set]
      by_cases e : l = l'
      · subst e; rw [if_pos rfl, hb]; rfl
      · rw [if_neg e]

theorem propagateBreakdown_ends (rank : String → Nat) {k : Nat} (hk : ∀ l, rank l < k) {m : TableModel} (hr : ∀ p cs, childrenOf m.nodes p = some cs → ∀ c ∈ cs, rank c.1 < rank p)
    (l : String) (o : PCOrder) : ∃ m', propagateBreakdown k m l o = .ok m' := by
  unfold propagateBreakdown
  cases hb : m.breakdowns.get? l with
  | none => exact ⟨m, rfl⟩
  | some b =>
    dsimp only
    generalize (if b.order = PCOrder.unspecified then o else b.order) = mine
    have fold : ∀ (cs : List (String × Int)) (ns : Dict String DefNode), (∀ p cs, childrenOf ns p = some cs → ∀ c ∈ cs, rank c.1 < rank p) →
        ∃ ns', cs.foldlM (fun ns c => propagateNode k ns c.1 mine) ns = .ok ns' := by
      intro cs
      induction cs with
      | nil => intro ns _; exact ⟨ns, rfl⟩
      | cons c cs ih =>
        intro ns hr
        obtain ⟨ns1, h1⟩ := propagateNode_ends rank k ns c.1 mine hr (hk _)
        obtain ⟨ns2, h2⟩ := ih ns1 (fun p cs hp => hr p cs (by rw [← propagateNode_children k _ _ _ _ h1 p]; exact hp))
        exact ⟨ns2, by rw [List.foldlM_cons, h1]; exact h2⟩
    obtain ⟨ns, h1⟩ := fold b.roots m.nodes hr
    rw [h1]
    exact ⟨_, rfl⟩

theorem propagateTable_ends (rank : String → Nat) {k : Nat} (hk : ∀ l, rank l < k) {m : TableModel} (hr : ∀ p cs, childrenOf m.nodes p = some cs → ∀ c ∈ cs, rank c.1 < rank p)
    (l : String) : ∃ m', propagateTable k m l = .ok m' ∧ ∀ p, childrenOf m'.nodes p = childrenOf m.nodes p := by
  unfold propagateTable
  cases ht : m.tables.get? l with
  | none => exact ⟨m, rfl, fun _ => rfl⟩
  | some t =>
    dsimp only
    generalize (if t.order = PCOrder.unspecified then PCOrder.parentFirst else t.order) = mine
    have fold : ∀ (cs : List (String × Int)) (m : TableModel), (∀ p cs, childrenOf m.nodes p = some cs → ∀ c ∈ cs, rank c.1 < rank p) →
        ∃ m', cs.foldlM (fun m c => propagateBreakdown k m c.1 mine) m = .ok m' ∧ ∀ p, childrenOf m'.nodes p = childrenOf m.nodes p := by
      intro cs
      induction cs with
      | nil => intro m _; exact ⟨m, rfl, fun _ => rfl⟩
      | cons c cs ih =>
        intro m hr
        obtain ⟨m1, h1⟩ := propagateBreakdown_ends rank hk hr c.1 mine
        have he : ∀ p, childrenOf m1.nodes p = childrenOf m.nodes p := fun p => (propagateBreakdown_children h1 p).1
        obtain ⟨m2, h2, h3⟩ := ih m1 (fun p cs hp => hr p cs (by rw [← he p]; exact hp))
        exact ⟨m2, by rw [List.foldlM_cons, h1]; exact h2, fun p => (h3 p).trans (he p)⟩
    exact fold _ _ hr

/-- C45: the orders of a link without cycles are found: if the nodes can be ranked such that children are below their parents, as many calls as there are ranks suffice. -/
theorem C45_ends (k : Nat) (m : TableModel) (rank : String → Nat) (hk : ∀ l, rank l < k)
    (hr : ∀ p n, m.nodes.get? p = some n → ∀ c ∈ n.children, rank c.1 < rank p) : ∃ m', propagateAll k m = .ok m' := by
  have hr' : ∀ p cs, childrenOf m.nodes p = some cs → ∀ c ∈ cs, rank c.1 < rank p := by
    intro p cs hp
    unfold childrenOf at hp
    cases hn : m.nodes.get? p with
    | none => rw [hn] at hp; cases hp
    | some n => rw [hn] at hp; cases hp; exact hr p n hn
  unfold propagateAll
  generalize m.tables.keys = ls
  clear hr
  induction ls generalizing m with
  | nil => exact ⟨m, rfl⟩
  | cons l ls ih =>
    obtain ⟨m1, h1, he⟩ := propagateTable_ends rank hk hr' l
    obtain ⟨m2, h2⟩ := ih m1 (fun p cs hp => hr' p cs (by rw [← he p]; exact hp))
    exact ⟨m2, by rw [List.foldlM_cons, h1]; exact h2⟩

theorem propagateNode_cycle (S : String → Prop) : ∀ (k : Nat) (ns ns' : Dict String DefNode) (l : String) (o : PCOrder),
    (∀ l, S l → ∃ cs, childrenOf ns l = some cs ∧ ∃ c ∈ cs, S c.1) → S l → propagateNode k ns l o ≠ .ok ns' := by
  intro k
  induction k with
  | zero => intro ns ns' l o _ _ h; cases h
  | succ k ih =>
    intro ns ns' l o hS hl h
    rw [propagateNode] at h
    obtain ⟨cs, hcs, c, hc, hSc⟩ := hS l hl
    cases hn : ns.get? l with
    | none => unfold childrenOf at hcs; rw [hn] at hcs; cases hcs
    | some n =>
      rw [hn] at h
      dsimp only at h
      have e : cs = n.children := by unfold childrenOf at hcs; rw [hn] at hcs; cases hcs; rfl
      subst e
      have fold : ∀ (cs : List (String × Int)) (ns : Dict String DefNode) (o : PCOrder), (∀ l, S l → ∃ cs, childrenOf ns l = some cs ∧ ∃ c ∈ cs, S c.1) → c ∈ cs →
          cs.foldlM (fun ns c => propagateNode k ns c.1 o) ns ≠ .ok ns' := by
        intro cs
        induction cs with
        | nil => intro ns o _ hc; cases hc
        | cons d cs ihc =>
          intro ns o hS hc h
          rw [List.foldlM_cons] at h
          cases h1 : propagateNode k ns d.1 o with
          | error _ => rw [h1] at h; cases h
          | ok ns1 =>
            rw [h1] at h
            rcases List.mem_cons.1 hc with rfl | hc
            · exact ih ns ns1 _ o hS hSc h1
            · exact ihc ns1 o (fun l hl => by rw [propagateNode_children k _ _ _ _ h1 l]; exact hS l hl) hc h
      refine fold _ _ _ ?_ hc h
      intro l' hl'
      obtain ⟨cs', hcs', hh⟩ := hS l' hl'
      refine ⟨cs', ?_, hh⟩
      rw [← hcs']
      unfold childrenOf
      rw [Dict.get?_set]
      by_cases e : l = l'
      · subst e; rw [if_pos rfl, hn]; rfl
      · rw [if_neg e]

theorem foldlM_not_ok {α β : Type} {f : β → α → Except PyErr β} (P : β → Prop) (pres : ∀ b a b', P b → f b a = .ok b' → P b') {a : α} (bad : ∀ b b', P b → f b a ≠ .ok b') :
    ∀ (l : List α) (b b' : β), a ∈ l → P b → l.foldlM f b ≠ .ok b' := by
  intro l
  induction l with
  | nil => intro b b' ha; cases ha
  | cons c l ih =>
    intro b b' ha hP h
    rw [List.foldlM_cons] at h
    cases h1 : f b c with
    | error _ => rw [h1] at h; cases h
    | ok b1 =>
      rw [h1] at h
      rcases List.mem_cons.1 ha with rfl | ha
      · exact bad b b1 hP h1
      · exact ih b1 b' ha (pres b c b1 hP h1) h

theorem foldlM_error {α β : Type} {f : β → α → Except PyErr β} {e0 : PyErr} (hf : ∀ b a e, f b a = .error e → e = e0) :
    ∀ (l : List α) (b : β) (e : PyErr), l.foldlM f b = .error e → e = e0 := by
  intro l
  induction l with
  | nil => intro b e h; cases h
  | cons c l ih =>
    intro b e h
    rw [List.foldlM_cons] at h
    cases h1 : f b c with
    | error e' => rw [h1] at h; cases h; exact hf _ _ _ h1
    | ok b1 => rw [h1] at h; exact ih b1 e h

theorem propagateBreakdown_error {k : Nat} {m : TableModel} {l : String} {o : PCOrder} {e : PyErr} (h : propagateBreakdown k m l o = .error e) : e = .recursionError := by
  unfold propagateBreakdown at h
  cases hb : m.breakdowns.get? l with
  | none => rw [hb] at h; cases h
  | some b =>
    rw [hb] at h
    dsimp only at h
    generalize (if b.order = PCOrder.unspecified then o else b.order) = mine at h
    cases h1 : b.roots.foldlM (fun ns c => propagateNode k ns c.1 mine) m.nodes with
    | error e' =>
      rw [h1] at h
      cases h
      exact foldlM_error (fun ns c e h => propagateNode_error k ns c.1 mine e h) _ _ _ h1
    | ok ns => rw [h1] at h; cases h

theorem propagateTable_error {k : Nat} {m : TableModel} {l : String} {e : PyErr} (h : propagateTable k m l = .error e) : e = .recursionError := by
  unfold propagateTable at h
  cases hb : m.tables.get? l with
  | none => rw [hb] at h; cases h
  | some t =>
    rw [hb] at h
    exact foldlM_error (fun m c e h => propagateBreakdown_error h) _ _ _ h

theorem propagateBreakdown_tables {k : Nat} {m m' : TableModel} {l : String} {o : PCOrder} (h : propagateBreakdown k m l o = .ok m') : m'.tables = m.tables := by
  unfold propagateBreakdown at h
  cases hb : m.breakdowns.get? l with
  | none => rw [hb] at h; cases h; rfl
  | some b =>
    rw [hb] at h
    dsimp only at h
    generalize (if b.order = PCOrder.unspecified then o else b.order) = mine at h
    cases h1 : b.roots.foldlM (fun ns c => propagateNode k ns c.1 mine) m.nodes with
    | error _ => rw [h1] at h; cases h
    | ok ns => rw [h1] at h; cases h; rfl

/-- The arcs of a model. -/
def SameArcs (m m1 : TableModel) : Prop :=
  (∀ l, childrenOf m1.nodes l = childrenOf m.nodes l) ∧ (∀ l, (m1.breakdowns.get? l).map (·.roots) = (m.breakdowns.get? l).map (·.roots)) ∧
    ∀ l, (m1.tables.get? l).map (·.breakdowns) = (m.tables.get? l).map (·.breakdowns)

theorem SameArcs.breakdown {m m1 m2 : TableModel} {k : Nat} {l : String} {o : PCOrder} (hP : SameArcs m m1) (h : propagateBreakdown k m1 l o = .ok m2) : SameArcs m m2 :=
  ⟨fun l' => ((propagateBreakdown_children h l').1).trans (hP.1 l'), fun l' => ((propagateBreakdown_children h l').2).trans (hP.2.1 l'), by
    rw [propagateBreakdown_tables h]; exact hP.2.2⟩

theorem foldlM_invariant {α β : Type} {f : β → α → Except PyErr β} (P : β → Prop) (pres : ∀ b a b', P b → f b a = .ok b' → P b') :
    ∀ (l : List α) (b b' : β), P b → l.foldlM f b = .ok b' → P b' := by
  intro l
  induction l with
  | nil => intro b b' hP h; cases h; exact hP
  | cons c l ih =>
    intro b b' hP h
    rw [List.foldlM_cons] at h
    cases h1 : f b c with
    | error _ => rw [h1] at h; cases h
    | ok b1 => rw [h1] at h; exact ih b1 b' (pres b c b1 hP h1) h

theorem SameArcs.setTable {m m1 : TableModel} {l : String} {t : TableDef} {o : PCOrder} (hP : SameArcs m m1) (ht : m1.tables.get? l = some t) :
    SameArcs m { m1 with tables := m1.tables.set l { t with order := o } } := by
  refine ⟨hP.1, hP.2.1, fun l' => ?_⟩
  show ((m1.tables.set l { t with order := o }).get? l').map (·.breakdowns) = _
  rw [Dict.get?_set, ← hP.2.2 l']
  by_cases e : l = l'
  · subst e; rw [if_pos rfl, ht]; rfl
  · rw [if_neg e]

/-- C45 is false of the code for cyclic trees: if a tree of a table runs into a cycle, reading the link ends with a `RecursionError`, however many calls are allowed. -/
theorem C45_cycle_false (k : Nat) (m : TableModel) (t b n : String) (tab : TableDef) (bd : Breakdown) (ht : m.tables.get? t = some tab) (hb : b ∈ tab.breakdowns)
    (hbd : m.breakdowns.get? b = some bd) (hn : n ∈ bd.roots.map (·.1)) (S : String → Prop) (hSn : S n)
    (hS : ∀ l, S l → ∃ nd, m.nodes.get? l = some nd ∧ ∃ c ∈ nd.children, S c.1) : propagateAll k m = .error .recursionError := by
  have hS' : ∀ l, S l → ∃ cs, childrenOf m.nodes l = some cs ∧ ∃ c ∈ cs, S c.1 := by
    intro l hl
    obtain ⟨nd, h1, h2⟩ := hS l hl
    exact ⟨nd.children, by unfold childrenOf; rw [h1]; rfl, h2⟩
  have hne : ∀ m', propagateAll k m ≠ .ok m' := by
    intro m'
    unfold propagateAll
    refine foldlM_not_ok (SameArcs m) ?_ (a := t) ?_ _ _ _ ?_ ⟨fun _ => rfl, fun _ => rfl, fun _ => rfl⟩
    · intro m1 l m2 hP h
      unfold propagateTable at h
      cases hl : m1.tables.get? l with
      | none => rw [hl] at h; cases h; exact hP
      | some t1 =>
        rw [hl] at h
        exact foldlM_invariant (SameArcs m) (fun _ _ _ hP h => hP.breakdown h) _ _ _ (hP.setTable hl) h
    · intro m1 m2 hP h
      unfold propagateTable at h
      have htab := hP.2.2 t
      rw [ht] at htab
      cases hl : m1.tables.get? t with
      | none => rw [hl] at htab; cases htab
      | some t1 =>
        rw [hl] at htab h
        have heq : t1.breakdowns = tab.breakdowns := by simpa using htab
        rw [← heq] at hb
        obtain ⟨c, hc, rfl⟩ := List.mem_map.1 hb
        refine foldlM_not_ok (SameArcs m) (fun _ _ _ hP h => hP.breakdown h) (a := c) ?_ _ _ _ hc (hP.setTable hl) h
        intro m3 m4 hP h
        unfold propagateBreakdown at h
        have hroots := hP.2.1 c.1
        rw [hbd] at hroots
        cases hl : m3.breakdowns.get? c.1 with
        | none => rw [hl] at hroots; cases hroots
        | some b3 =>
          rw [hl] at hroots h
          have heq : b3.roots = bd.roots := by simpa using hroots
          dsimp only at h
          rw [heq] at h
          generalize (if b3.order = PCOrder.unspecified then _ else b3.order) = mine at h
          cases h1 : bd.roots.foldlM (fun ns c => propagateNode k ns c.1 mine) m3.nodes with
          | error _ => rw [h1] at h; cases h
          | ok ns =>
            obtain ⟨r, hr, rfl⟩ := List.mem_map.1 hn
            refine foldlM_not_ok (fun ns => ∀ l, childrenOf ns l = childrenOf m.nodes l) ?_ (a := r) ?_ _ _ _ hr hP.1 h1
            · intro ns c ns' hP h l
              rw [propagateNode_children k _ _ _ _ h l, hP l]
            · intro ns ns' hP
              apply propagateNode_cycle S k ns ns' r.1 mine _ hSn
              intro l hl
              rw [hP l]
              exact hS' l hl
    · apply (Dict.has_iff_mem_keys m.tables t).1
      rw [Dict.has_eq, ht]; rfl
  cases h : propagateAll k m with
  | ok m' => exact absurd h (hne m')
  | error e =>
    unfold propagateAll at h
    rw [foldlM_error (fun m l e h => propagateTable_error h) _ _ _ h]

end Brel
