import Verif.Lemmas.ProcessInv
import Verif.Props.Known

/-
Where the endpoints and the product data of a node come from, for C110.
-/

set_option linter.unusedSimpArgs false
set_option linter.unusedVariables false

namespace Verif.Lemmas.Process

open Verif.Go Verif.Model Verif.Model.Conn Verif.Spec Verif.Lemmas Verif.Lemmas.Conn Verif.Lemmas.Ctl Verif.Lemmas.NodeM
  Verif.Lemmas.System Verif.Props

variable {lv : LoopVars} {db : DB} {f : Bool} {ns : List Node}

/-! ### Endpoints -/

theorem eps_from {n n' : NSt} {l : NLabel} (h : nodeStep db n l = some n') {es : List Endpoint}
    (hp : n'.node.endpoints = some es) :
    n.node.endpoints = some es ∨ es = [] ∨
      ∃ i m, l = .ident i (.report (.multiChannelEndpoints m)) ∧ n.ident i = .reply .endpoints ∧
        es = n.node.makeEndpoints m.endpoints := by
  node_step h
  all_goals try (exact .inl hp)
  all_goals try (have c := (alarmOn_ok (by assumption)).1; exact .inl (by rw [← c.endpoints]; exact hp))
  all_goals try (have c := (alarmOff_ok (by assumption)).1; exact .inl (by rw [← c.endpoints]; exact hp))
  all_goals try (have c := applyState_core (by assumption); exact .inl (by rw [← c.endpoints]; exact hp))
  all_goals try (simp [setManufacturer_fields] at hp; exact .inl hp)
  all_goals try (simp at hp; exact .inr (.inl hp))
  all_goals try (simp at hp; exact .inr (.inl hp.symm))
  all_goals
    simp at hp
    exact .inr (.inr ⟨_, _, rfl, by assumption, hp.symm⟩)

/-- The numbers of endpoints. -/
def epNums (es : List Endpoint) : List Int := es.map Endpoint.id

def EpInv (ns : List Node) (w : Whole) : Prop :=
  ∀ ref, ref < w.sys.ctl.nHeap → ∀ es, (w.sys.ctl.heap ref).node.endpoints = some es →
    (∃ n ∈ ns, n.id = (w.sys.ctl.heap ref).node.id ∧ n.endpoints.map epNums = some (epNums es)) ∨ es = [] ∨
      ∃ a x m, askAt (w.sys.ctl.heap ref).node.id (.reply .endpoints) = some a ∧
        Told w.sys.conn a (.ach x) ∧ x.report = .multiChannelEndpoints m ∧
        epNums es = (List.range (m.endpoints - 1)).map fun i => ((i + 1 : Nat) : Int)

theorem epInv_step {w w' : Whole} {l : WLabel} (hi : WInv ns w) (he : EpInv ns w) (h : wStep lv db w l = some w') :
    EpInv ns w' := by
  intro ref hr es hp
  have old : ref < w.sys.ctl.nHeap → (w'.sys.ctl.heap ref).node.id = (w.sys.ctl.heap ref).node.id →
      (w.sys.ctl.heap ref).node.endpoints = some es →
      (∃ n ∈ ns, n.id = (w'.sys.ctl.heap ref).node.id ∧ n.endpoints.map epNums = some (epNums es)) ∨ es = [] ∨
      ∃ a x m, askAt (w'.sys.ctl.heap ref).node.id (.reply .endpoints) = some a ∧
        Told w'.sys.conn a (.ach x) ∧ x.report = .multiChannelEndpoints m ∧
        epNums es = (List.range (m.endpoints - 1)).map fun i => ((i + 1 : Nat) : Int) := by
    intro hlt e k
    have g := he ref hlt es k
    rw [← e] at g
    exact g.imp (fun g => g) (Or.imp (fun g => g) fun ⟨a, x, m, g1, g2, g3⟩ => ⟨a, x, m, g1, told_mono h g2, g3⟩)
  rcases ctl_of h with ⟨cl, g1, g2⟩ | ⟨g1, g2⟩
  · rcases Nat.lt_or_ge ref w.sys.ctl.nHeap with hlt | hge
    · rcases heap_ident hlt g1 with ⟨k, -⟩ | ⟨l', k1, k2⟩
      · rw [k] at hp
        exact old hlt (by rw [k]) hp
      · have hid := (frame_step k1).id
        rcases eps_from k1 hp with k | k | ⟨i, m, k, k3, k4⟩
        · exact old hlt hid k
        · exact .inr (.inl k)
        · have hl := ctl_lab g2 (by rw [(k2 i _).1 k]; simp)
          rw [(k2 i _).1 k] at hl
          subst hl
          obtain ⟨a, u, e1, e2, e3⟩ := ident_told hi h hlt (by rw [k3]; rfl)
          rw [k3] at e1 e3
          rw [hid]
          simp only [identAnswer, Option.map_eq_some_iff] at e3
          obtain ⟨x, h1, h2⟩ := e3
          cases x with
          | none => cases h2
          | some r =>
            obtain ⟨b, m', c, hb, hd, hc⟩ := heardReport_got h1
            simp only [reportAnswer, Answer.report.injEq] at h2
            refine .inr (.inr ⟨a, c, m, e1, told_mono h ⟨u, b, m', e2, hb, hd⟩, by rw [hc, h2], ?_⟩)
            rw [k4]
            simp [epNums, Node.makeEndpoints]
    · obtain ⟨id, e⟩ := heap_new hge hr g1
      rw [e] at hp
      cases hp
  · rw [g1] at hr hp
    exact old hr (by rw [g1]) hp

theorem epInv {ls : List WLabel} {w : Whole} (h : runSteps (wStep lv db) (wStart f ns) ls = some w) : EpInv ns w := by
  refine (wrun_induct (P := fun w => WInv ns w ∧ EpInv ns w) (fun _ _ _ hp hs => ⟨winv_step hp.1 hs, epInv_step hp.1 hp.2 hs⟩)
    ⟨winv_start f ns, fun ref hr es hp => ?_⟩ h).2
  obtain ⟨b1, b2, b3⟩ := begun_start f ns
  obtain ⟨n, hn, e⟩ := b1 ref hr
  have e' : (wStart f ns).sys.ctl.heap ref = _ := e
  rw [e'] at hp ⊢
  refine .inl ⟨n, hn, rfl, ?_⟩
  simp only [NSt.start, Node.link, Option.map_eq_some_iff] at hp
  obtain ⟨es', h1, rfl⟩ := hp
  rw [h1]
  simp [epNums, Function.comp_def]

/-! ### Product data -/

/-- What is shown of node `nd`: as in the file, or new, or what the database says for the manufacturer. -/
def ProdOk (db : DB) (ns : List Node) (nd : Node) : Prop :=
  ∃ b : Node, (b ∈ ns ∧ b.id = nd.id ∨ b = newNode nd.id) ∧
    (nd.manufacturer = b.manufacturer ∧ nd.brand = b.brand ∧ nd.product = b.product ∧ nd.description = b.description ∨
      ∃ m, b.manufacturer = none ∧ nd.manufacturer = some m ∧
        match db.device m.manufacturer m.type m.id with
        | none => nd.brand = b.brand ∧ nd.product = b.product ∧ nd.description = b.description
        | some d => nd.brand = d.brand ∧ nd.product = d.product ∧ nd.description = d.description)

theorem prodOk_set {nd : Node} (h : ProdOk db ns nd) (hm : nd.manufacturer = none) (m : ManufacturerSpecific) :
    ProdOk db ns (nd.setManufacturer db m) := by
  obtain ⟨b, hb, h⟩ := h
  refine ⟨b, by simpa [setManufacturer_fields] using hb, .inr ⟨m, ?_⟩⟩
  rcases h with ⟨h1, h2, h3, h4⟩ | ⟨m', h0, h1, -⟩
  · refine ⟨h1.symm.trans hm, by simp [setManufacturer_fields], ?_⟩
    cases hd : db.device m.manufacturer m.type m.id with
    | none => simp [Node.setManufacturer, hd, h2, h3, h4]
    | some d => simp [Node.setManufacturer, hd]
  · rw [hm] at h1; cases h1

theorem prodOk_same {nd nd' : Node} (h : ProdOk db ns nd) (e0 : nd'.id = nd.id) (e1 : nd'.manufacturer = nd.manufacturer)
    (e2 : nd'.brand = nd.brand) (e3 : nd'.product = nd.product) (e4 : nd'.description = nd.description) : ProdOk db ns nd' := by
  unfold ProdOk at *
  rw [e0, e1, e2, e3, e4]
  exact h

theorem prodOk_step {n n' : NSt} {l : NLabel} (hs : SeekInv n) (h : nodeStep db n l = some n') (hp : ProdOk db ns n.node) :
    ProdOk db ns n'.node := by
  node_step h
  all_goals first
    | exact hp
    | exact prodOk_same hp rfl rfl rfl rfl rfl
    | (have c := (alarmOn_ok (by assumption)).1; exact prodOk_same hp c.id c.manufacturer c.brand c.product c.description)
    | (have c := (alarmOff_ok (by assumption)).1; exact prodOk_same hp c.id c.manufacturer c.brand c.product c.description)
    | (have c := applyState_core (by assumption); exact prodOk_same hp c.id c.manufacturer c.brand c.product c.description)
    | (refine prodOk_set hp (hs.manu _ (congrArg seeks (by assumption))) _)

theorem prodInv (hg : GoodFile ns) {s : CSt} (hr : CReach db f ns s) {ref : Nat} (hlt : ref < s.nHeap) :
    ProdOk db ns (s.heap ref).node := by
  obtain ⟨ls, h⟩ := hr
  refine (crun_induct (P := fun s => CReach db f ns s ∧ ∀ ref, ref < s.nHeap → ProdOk db ns (s.heap ref).node) ?_ ls _ _
    ⟨⟨[], rfl⟩, ?_⟩ h).2 ref hlt
  · intro a l b ⟨p1, p2⟩ hb
    refine ⟨creach_step p1 hb, fun ref hr => ?_⟩
    rcases Nat.lt_or_ge ref a.nHeap with hlt | hge
    · rcases applied_step hlt hb with ⟨h2, -⟩ | ⟨l', h2, -⟩
      · rw [h2]; exact p2 ref hlt
      · exact prodOk_step (seekAll hg p1 ref hlt) h2 (p2 ref hlt)
    · obtain ⟨id, e⟩ := heap_new hge hr hb
      rw [e]
      exact ⟨_, .inr rfl, .inl ⟨rfl, rfl, rfl, rfl⟩⟩
  · intro ref hr
    obtain ⟨b1, b2, b3⟩ := begun_start f ns
    obtain ⟨n, hn, e⟩ := b1 ref hr
    rw [e]
    exact ⟨n, .inl ⟨hn, rfl⟩, .inl ⟨rfl, rfl, rfl, rfl⟩⟩

end Verif.Lemmas.Process
