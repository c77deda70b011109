import Verif.Spec.Network
import Verif.Props.CtlFair
import Verif.Lemmas.System
import Verif.Lemmas.CtlMore

/-
C123: if the file holds every node the stick reports, the discovery disturbs nothing.
-/

set_option linter.unusedSimpArgs false
set_option linter.unusedVariables false
set_option maxHeartbeats 1000000

namespace Verif.Props

open Verif.Go Verif.Model Verif.Spec Verif.Lemmas Verif.Lemmas.NodeM Verif.Lemmas.Ctl

/-! ### The invariant -/

/-- No node is being added, and none will be. -/
def AllKnown (L : GoMap Int Nat) : DiscAt → Prop
  | .absent | .wait | .done => True
  | .loop todo | .start _ todo => ∀ id ∈ todo, L.get id ≠ none
  | _ => False

structure Undisturbed (L : GoMap Int Nat) (s : CSt) : Prop where
  list : s.list = L
  disc : AllKnown L s.disc
  deliv : ∀ k, s.deliv k ≠ .stuck
  saver : s.saver ≠ .stuck

theorem allKnown_locks {L : GoMap Int Nat} {d : DiscAt} (h : AllKnown L d) : d.locks = false ∧ d.writes = false := by
  cases d <;> first | exact ⟨rfl, rfl⟩ | exact h.elim

theorem undisturbed_step {db : DB} {L : GoMap Int Nat} {s s' : CSt} {l : CLabel} (h : cStep db s l = some s') (hu : Undisturbed L s)
    (hr : ∀ bm, CEv.reply bm ∈ s'.hist → ∀ id ∈ activeIds bm, L.get id ≠ none) : Undisturbed L s' := by
  obtain ⟨h1, h2, h3, h4⟩ := hu
  have h5 := (allKnown_locks h2).1
  ctl_step h
  all_goals try have q := h2
  all_goals try rw [(by assumption : s.disc = _)] at q
  all_goals try (exact q.elim)
  all_goals try simp only [AllKnown] at q
  all_goals constructor
  all_goals try simp only [put_list, put_disc, put_deliv, put_saver, push_list, push_disc, push_deliv, AllKnown]
  all_goals first
    | assumption
    | grind [updN, CSt.push]

theorem activeIds_mem {bm : List Bool} {id : Int} (h : id ∈ activeIds bm) : ∃ i : Nat, 0 < i ∧ bm[i]? = some true ∧ id = ((i + 1 : Nat) : Int) := by
  unfold activeIds at h
  obtain ⟨p, hp, rfl⟩ := List.mem_map.1 h
  obtain ⟨h1, h2⟩ := List.mem_filter.1 hp
  obtain ⟨b, i⟩ := p
  simp only [Bool.and_eq_true, bne_iff_ne, ne_eq] at h2
  obtain ⟨rfl, h2⟩ := h2
  refine ⟨i, by omega, ?_, rfl⟩
  have := List.mem_zipIdx_iff_getElem?.1 h1
  simpa using this

theorem load_knows : ∀ (ns : List Node) (s : CSt), (∀ n ∈ ns, (s.loadNodes ns).list.get n.id ≠ none) ∧
    (∀ id, s.list.get id ≠ none → (s.loadNodes ns).list.get id ≠ none)
  | [], s => ⟨fun n hn => (nomatch hn), fun _ h => h⟩
  | n :: ns, s => by
    obtain ⟨h1, h2⟩ := load_knows ns (s.loadNode n)
    have h3 : ∀ id, (id = n.id ∨ s.list.get id ≠ none) → (s.loadNode n).list.get id ≠ none := by
      intro id hid
      unfold CSt.loadNode
      simp only [push_list, get_put, Node.link]
      split
      · simp
      · next hne => exact hid.resolve_left hne
    refine ⟨fun m hm => ?_, fun id hid => h2 id (h3 id (.inr hid))⟩
    rcases List.mem_cons.1 hm with rfl | hm
    · exact h2 _ (h3 _ (.inl rfl))
    · exact h1 m hm

theorem load_calm : ∀ (ns : List Node) (s : CSt), (s.loadNodes ns).deliv = s.deliv ∧ (s.loadNodes ns).saver = s.saver ∧
    (s.loadNodes ns).disc = s.disc
  | [], s => ⟨rfl, rfl, rfl⟩
  | n :: ns, s => by
    obtain ⟨h1, h2, h3⟩ := load_calm ns (s.loadNode n)
    exact ⟨h1, h2, h3⟩

theorem undisturbed {db : DB} {f : Bool} {ns : List Node} {s : CSt} (hr : CReach db f ns s) (hn : SameNetwork ns s.hist) :
    Undisturbed (start f ns).list s := by
  obtain ⟨ls, h⟩ := hr
  refine crun_induct (P := fun s => SameNetwork ns s.hist → Undisturbed (start f ns).list s) ?_ ls _ _ (fun _ => ?_) h hn
  · intro s l s' hi hs hn
    refine undisturbed_step hs (hi fun bm hb => hn bm (Verif.Lemmas.System.hist_mono hs hb)) fun bm hb id hid => ?_
    obtain ⟨i, h1, h2, rfl⟩ := activeIds_mem hid
    obtain ⟨n, hm, h3⟩ := hn bm hb i h1 h2
    rw [← h3]
    exact (load_knows ns (newController f)).1 n hm
  · obtain ⟨h1, h2, h3⟩ := load_calm ns (newController f)
    refine ⟨rfl, ?_, fun k => ?_, ?_⟩
    · show AllKnown _ ((newController f).loadNodes ns).disc
      rw [h3]; trivial
    · show ((newController f).loadNodes ns).deliv k ≠ _
      rw [h1]; simp [newController]
    · show ((newController f).loadNodes ns).saver ≠ _
      rw [h2]; simp [newController]

/-! ### C123 -/

/-- C123: if the file holds every node the stick reported, the list is still that of the file, nobody holds its lock or writes its map, and no
delivery and no save is stuck. -/
theorem C123_list_untouched {db : DB} {f : Bool} {ns : List Node} {s : CSt} (hr : CReach db f ns s) (hn : SameNetwork ns s.hist) :
    s.list = (start f ns).list ∧ s.disc.locks = false ∧ s.disc.writes = false ∧ (∀ k, s.deliv k ≠ .stuck) ∧ s.saver ≠ .stuck := by
  obtain ⟨h1, h2, h3, h4⟩ := undisturbed hr hn
  exact ⟨h1, (allKnown_locks h2).1, (allKnown_locks h2).2, h3, h4⟩

/-- C123: the program then dies only while the states of a node are being saved (C73). -/
theorem C123_dies_only_saving {db : DB} {f : Bool} {ns : List Node} (hg : GoodFile ns) {s s' : CSt} {l : CLabel} (hr : CReach db f ns s)
    (hn : SameNetwork ns s.hist) (h0 : s.crashed = none) (h : cStep db s l = some s') :
    s'.crashed = none ∨ s'.crashed = some .mapRace ∧ f = true ∧ ∃ ref, s.saver.reads = some ref := by
  rcases crash_cause (cinv hg hr) h0 h with h | ⟨h1, h | h⟩
  · exact .inl h
  · rw [(C123_list_untouched hr hn).2.2.1] at h; cases h
  · refine .inr ⟨h1, ?_, Option.isSome_iff_exists.1 h⟩
    cases f with
    | true => rfl
    | false =>
      have := (noFile hr).idle
      cases hv : s.saver <;> rw [hv] at h this <;> first | cases h | cases this

/-- C123: without a file to write, it never dies. -/
theorem C123_never_dies {db : DB} {ns : List Node} (hg : GoodFile ns) {s : CSt} (hr : CReach db false ns s)
    (hn : SameNetwork ns s.hist) : s.crashed = none := by
  have h0 : ∀ (ms : List Node) (t : CSt), (t.loadNodes ms).crashed = t.crashed := by
    intro ms
    induction ms with
    | nil => intro t; rfl
    | cons m ms ih => intro t; exact ih _
  obtain ⟨ls, h⟩ := hr
  refine (crun_induct (P := fun s => CReach db false ns s ∧ (SameNetwork ns s.hist → s.crashed = none)) ?_ ls _ _
    ⟨⟨[], rfl⟩, fun _ => h0 ns _⟩ h).2 hn
  intro s l s' ⟨hr, hi⟩ hs
  refine ⟨creach_step hr hs, fun hn => ?_⟩
  have hn' : SameNetwork ns s.hist := fun bm hb => hn bm (Verif.Lemmas.System.hist_mono hs hb)
  rcases C123_dies_only_saving hg hr hn' (hi hn') hs with h | ⟨-, h, -⟩
  · exact h
  · cases h

variable {db : DB} {f : Bool} {ns : List Node} {e : Exec (cStep db)}

/-- C123: every report from a node in the list is applied to it, whenever it comes, also while the discovery goes on, unless the program dies
in a save. -/
theorem C123_report_applied (hf : FairCtl e) (hg : GoodFile ns) (hr : CReach db f ns (e.st 0)) (hn : ∀ m, SameNetwork ns (e.st m).hist)
    (n k ref : Nat) (id : UInt8) (r : Report) (hk : k < (e.st n).nDeliv) (hd : (e.st n).deliv k = .call id r)
    (hid : (e.st n).list.get (id.toNat : Int) = some ref) :
    ∃ m, n ≤ m ∧ ((e.st m).crashed ≠ none ∧ f = true ∨ CEv.applied k ref r ∈ (e.st m).hist) := by
  obtain ⟨m, h1, h2 | h2 | ⟨h2, -⟩⟩ := C97_report_applied_partial hf hg hr n k ref id r hk hd hid
  · refine ⟨m, h1, .inl ⟨h2, ?_⟩⟩
    cases f with
    | true => rfl
    | false => exact absurd (C123_never_dies hg (cexec_reach hr m) (hn m)) h2
  · exact ⟨m, h1, .inr h2⟩
  · exact absurd h2 ((C123_list_untouched (cexec_reach hr m) (hn m)).2.2.2.1 k)

/-- C123: and what was changed is written to the file when updates pause, unless the program dies. -/
theorem C123_saved (hf : FairCtl e) (hg : GoodFile ns) (hr : CReach db true ns (e.st 0)) (hn : ∀ m, SameNetwork ns (e.st m).hist) (n : Nat)
    (hd : (e.st n).disc ≠ .absent) (ha : (e.st n).saver ≠ .absent) (hu : ∀ m, n ≤ m → updates (e.st m).hist = updates (e.st n).hist) :
    ∃ m, n ≤ m ∧ ((e.st m).crashed ≠ none ∨ unsaved (e.st m).hist = false ∧ saving (e.st m).hist = false) := by
  obtain ⟨m, h1, h2 | h2⟩ := C97_discovery_ends hf hg hr n hd
  · exact ⟨m, h1, .inl h2⟩
  have ha' : (e.st m).saver ≠ .absent := by
    refine exec_keep e (Q := fun s => s.saver ≠ .absent) (fun s l s' hq hs => ?_) ha m h1
    ctl_step hs
    all_goals first
      | assumption
      | (simp only [put_saver]; assumption)
      | (intro hc; cases hc; done)
      | (simp_all; done)
      | grind [CSt.push]
  obtain ⟨m', h3, h4⟩ := C97_saved_partial hf hr m h2 ha' ((C123_list_untouched (cexec_reach hr m) (hn m)).2.2.2.2)
    (fun j hj => by rw [hu j (by omega), hu m h1])
  exact ⟨m', by omega, h4⟩

/-- The list of the file holds the nodes of the file. -/
theorem C123_in_list {s : CSt} (hr : CReach db f ns s) (hn : SameNetwork ns s.hist) {n : Node} (hm : n ∈ ns) :
    ∃ ref, s.list.get n.id = some ref := by
  rw [(C123_list_untouched hr hn).1]
  exact Option.ne_none_iff_exists'.1 ((load_knows ns (newController f)).1 n hm)

/-! ### A case -/

/-- Every reply in the history is this one. -/
def onlyReply (bm : List Bool) (h : List CEv) : Bool := h.all fun
  | .reply b => b == bm
  | _ => true

theorem same_onlyReply {ns : List Node} {bm : List Bool} {h : List CEv} (hb : onlyReply bm h = true)
    (hn : ∀ i : Nat, 0 < i → bm[i]? = some true → ∃ n ∈ ns, n.id = ((i + 1 : Nat) : Int)) : SameNetwork ns h := by
  intro b hm i hi hbi
  have := List.all_eq_true.1 hb _ hm
  simp only [beq_iff_eq] at this
  rw [this] at hbi
  exact hn i hi hbi

theorem hist_keeps {n m : Nat} (h : n ≤ m) {x : CEv} (hx : x ∈ (e.st n).hist) : x ∈ (e.st m).hist :=
  exec_keep e (Q := fun s => x ∈ s.hist) (fun s l s' hq hs => Verif.Lemmas.System.hist_mono hs hq) hx m h

/-- A fair execution with an unchanged network in which a report of node 2 arrives while the discovery goes through the nodes, is about to be
delivered then, and is applied in the end. -/
example : ∃ e : Exec (cStep demoDB), FairCtl e ∧ GoodFile [fileNode 2] ∧ CReach demoDB false [fileNode 2] (e.st 0) ∧
    (∀ m, SameNetwork [fileNode 2] (e.st m).hist) ∧ (e.st 3).disc = .loop [2] ∧ 0 < (e.st 3).nDeliv ∧ (e.st 3).deliv 0 = .call 2 repOn ∧
    (e.st 3).list.get 2 = some 0 := by
  obtain ⟨e, h1, h2, h3, h4⟩ := cfair_of_run (fl := false) fileGood
    (ls := [.startDisc, .disc (.nodes [true, true]), .arrive 2 repOn, d, .deliver 0, .deliver 0, d, .deliver 0, d])
    (p := fun s => onlyReply [true, true] s.hist) (fun _ _ => rfl) (by decide +kernel)
  have hall : ∀ m, SameNetwork [fileNode 2] (e.st m).hist := by
    intro m bm hm
    refine same_onlyReply (bm := [true, true]) (h4 (m + 9) (by simp)).2 ?_ bm (hist_keeps (by omega) hm)
    intro i hi hb
    rcases i with _ | _ | i
    · cases hi
    · exact ⟨_, List.mem_singleton.2 rfl, rfl⟩
    · simp at hb
  have hq : (cRun demoDB (start false [fileNode 2]) [.startDisc, .disc (.nodes [true, true]), .arrive 2 repOn]).map (fun s =>
      decide (s.disc = .loop [2] ∧ 0 < s.nDeliv ∧ s.deliv 0 = .call 2 repOn ∧ s.list.get 2 = some 0)) = some true := by decide +kernel
  rw [Option.map_eq_some_iff] at hq
  obtain ⟨t, q1, q2⟩ := hq
  have := h3 3 t (by simp) q1
  exact ⟨e, h1, fileGood, h2, hall, by rw [this]; exact of_decide_eq_true q2⟩

/-- C123 is about an unchanged network for a reason: with one node that is not in the file, in a fair execution without any crash, a report of
a node that is in the file is never applied. -/
theorem C123_violated_new_node : ∃ e : Exec (cStep demoDB), FairCtl e ∧ CReach demoDB false [fileNode 2] (e.st 0) ∧
    (∀ m, SameNetwork [fileNode 2, fileNode 3] (e.st m).hist) ∧ ∃ n, ∀ m, n ≤ m → (e.st m).crashed = none ∧ (e.st m).list.get 2 = some 0 ∧
      arrivalOf 0 (e.st m).hist = some (2, repOn) ∧ timesApplied 0 (e.st m).hist = 0 := by
  obtain ⟨e, h1, h2, -, h4⟩ := cfair_of_run (fl := false) fileGood
    (ls := [.startDisc, .disc (.nodes [true, false, true]), .arrive 2 repOn, d, d, .deliver 0] ++ List.replicate 7 d)
    (p := fun s => onlyReply [true, false, true] s.hist &&
      decide (s.list.get 2 = some 0 ∧ arrivalOf 0 s.hist = some (2, repOn) ∧ timesApplied 0 s.hist = 0))
    (fun _ _ => rfl) (by decide +kernel)
  refine ⟨e, h1, h2, fun m bm hm => ?_, 13, fun m hm => ?_⟩
  · have g := (h4 (m + 13) (by simp)).2
    rw [Bool.and_eq_true] at g
    refine same_onlyReply (bm := [true, false, true]) g.1 ?_ bm (hist_keeps (by omega) hm)
    intro i hi hb
    rcases i with _ | _ | _ | i
    · cases hi
    · simp at hb
    · exact ⟨fileNode 3, by simp, rfl⟩
    · simp at hb
  · obtain ⟨g1, g2⟩ := h4 m (by simpa using hm)
    rw [Bool.and_eq_true] at g2
    exact ⟨g1, by simpa using g2.2⟩

end Verif.Props
