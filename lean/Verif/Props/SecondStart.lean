import Verif.Props.SameNetworkFile
import Verif.Props.Known

/-
C123: after a restart the network is unchanged as long as the stick reports no other nodes than before.
-/

set_option linter.unusedSimpArgs false
set_option linter.unusedVariables false
set_option maxHeartbeats 1000000

namespace Verif.Props

open Verif.Go Verif.Model Verif.Spec Verif.Lemmas Verif.Lemmas.NodeM Verif.Lemmas.Ctl Verif.Lemmas.Persist

variable {db : DB}

/-- A reply is received by the discovery that waits for it. -/
theorem reply_by {s s' : CSt} {l : CLabel} {bm : List Bool} (h : cStep db s l = some s') (ho : CEv.reply bm ∉ s.hist)
    (hm : CEv.reply bm ∈ s'.hist) : l = .disc (.nodes bm) ∧ s.disc = .wait := by
  ctl_step h
  all_goals first
    | exact absurd hm ho
    | (simp only [put_hist, CSt.push] at hm; grind)
    | grind [CSt.push, put_hist]

/-- No reply has been received, or one, and its nodes are being registered. -/
def Registering (s : CSt) : Prop :=
  (∀ bm, CEv.reply bm ∉ s.hist) ∨
  ∃ base n0 bm ann0, DInv base n0 (activeIds bm) ann0 s ∧ ∀ bm', CEv.reply bm' ∈ s.hist → bm' = bm

theorem registering_step {s s' : CSt} {l : CLabel} (hc : CInv s) (hi : Registering s) (h : cStep db s l = some s') : Registering s' := by
  rcases hi with hi | ⟨base, n0, bm, ann0, h1, h2⟩
  · by_cases hx : ∃ bm, CEv.reply bm ∈ s'.hist
    · obtain ⟨bm, hm⟩ := hx
      obtain ⟨rfl, hw⟩ := reply_by h (hi bm) hm
      obtain ⟨q1, q2⟩ := dinv_reply hw h
      refine .inr ⟨_, _, bm, _, q1, fun bm' hb => ?_⟩
      rw [q2] at hb
      rcases List.mem_cons.1 hb with hb | hb
      · cases hb; rfl
      · exact absurd hb (hi bm')
    · exact .inl fun bm hm => hx ⟨bm, hm⟩
  · refine .inr ⟨base, n0, bm, ann0, dinv_step hc h1 h, fun bm' hb => ?_⟩
    by_cases hold : CEv.reply bm' ∈ s.hist
    · exact h2 bm' hold
    · obtain ⟨-, hw⟩ := reply_by h hold hb
      have := h1.before
      rw [hw] at this; cases this

theorem load_replies (ns : List Node) : ∀ (s : CSt), (∀ bm, CEv.reply bm ∉ s.hist) → ∀ bm, CEv.reply bm ∉ (s.loadNodes ns).hist := by
  induction ns with
  | nil => intro s h; exact h
  | cons n ns ih =>
    intro s h
    refine ih (s.loadNode n) fun bm hm => ?_
    rcases List.mem_cons.1 hm with hm | hm
    · cases hm
    · exact h bm hm

/-- What a restart loads: the nodes of the list. -/
theorem restart_nodes {s c : CSt} (hl : Life db s) {o o' : Order} {f : Bool}
    (h : loadConfig o o' (some (saveText s.nodes)) (newController f) = .ret false c) :
    ∃ ns, c = start f ns ∧ GoodFile ns ∧ ∀ id ref, s.list.get id = some ref → ∃ n ∈ ns, n.id = id := by
  obtain ⟨i1, i2⟩ := life_inv hl
  have hok := listOk_nodes i1 i2
  obtain ⟨ns, hp, hld⟩ := load_saved o o' hok (newController f)
  rw [hld] at h
  injection h with _ h
  refine ⟨ns.map reread, h.symm, ⟨fun n hm => ?_, ?_⟩, fun id ref hg => ?_⟩
  · obtain ⟨m, hm', rfl⟩ := List.mem_map.1 hm
    obtain ⟨e, he, rfl⟩ := List.mem_map.1 (hp.mem_iff.1 hm')
    obtain ⟨x, hx, rfl⟩ := List.mem_map.1 he
    have := i1.safe x.2 (i1.list x.1 x.2 (mem_get i2.nodup hx)).1
    exact ⟨by simpa [reread] using this.mapB, by simpa [reread] using this.mapF, rfl, rfl, rfl⟩
  · rw [List.map_map]
    exact ids_nodup hok hp
  · refine ⟨reread (s.heap ref).node, List.mem_map.2 ⟨_, hp.mem_iff.2 (List.mem_map.2 ⟨(id, (s.heap ref).node), ?_, rfl⟩), rfl⟩,
      (i1.list id ref hg).2⟩
    exact List.mem_map.2 ⟨(id, ref), Verif.Lemmas.Persist.get_mem hg, rfl⟩

theorem life_registering {s : CSt} (h : Life db s) : Registering s := by
  induction h with
  | first f => exact .inl fun bm hm => by cases hm
  | step hl _ hs ih => exact registering_step (life_inv hl).1 ih hs
  | restart o o' f hl hc ih =>
    obtain ⟨ns, rfl, -⟩ := restart_nodes hl hc
    exact .inl (load_replies ns _ fun bm hm => by cases hm)

/-- C123: when the discovery is over, every node the stick reported is in the list. -/
theorem C123_registered {s : CSt} (h : Life db s) (hd : s.disc = .done) {bm : List Bool} (hb : CEv.reply bm ∈ s.hist) {i : Nat}
    (hi : 0 < i) (ha : bm[i]? = some true) : ∃ ref, s.list.get ((i + 1 : Nat) : Int) = some ref := by
  rcases life_registering h with h1 | ⟨base, n0, bm', ann0, h1, h2⟩
  · exact absurd hb (h1 bm)
  have := h2 bm hb
  subst this
  cases hx : base.get ((i + 1 : Nat) : Int) with
  | some r => exact ⟨r, h1.keep _ _ hx⟩
  | none =>
    have hu : unadded s = [] := by unfold unadded; rw [hd]; rfl
    refine Option.isSome_iff_exists.1 ((h1.new _ hx).2 ⟨(active_mem _ _).2 ⟨i, Nat.pos_iff_ne_zero.1 hi, ha, by push_cast; rfl⟩, ?_⟩)
    rw [hu]; simp

/-- C123: what is saved when the discovery is over serves as the file of an unchanged network: if after a restart the stick reports no
node it had not reported before, the next life is undisturbed in all the ways C123 says. -/
theorem C123_second_start {s c : CSt} (h : Life db s) (hd : s.disc = .done) {o o' : Order} {f : Bool}
    (hload : loadConfig o o' (some (saveText s.nodes)) (newController f) = .ret false c) :
    ∃ ns, c = start f ns ∧ GoodFile ns ∧ ∀ k : List CEv,
      (∀ bm, CEv.reply bm ∈ k → ∃ bm', CEv.reply bm' ∈ s.hist ∧ ∀ i : Nat, bm[i]? = some true → bm'[i]? = some true) → SameNetwork ns k := by
  obtain ⟨ns, h1, h2, h3⟩ := restart_nodes h hload
  refine ⟨ns, h1, h2, fun k hk bm hb i hi ha => ?_⟩
  obtain ⟨bm', g1, g2⟩ := hk bm hb
  obtain ⟨ref, hr⟩ := C123_registered h hd g1 hi (g2 i ha)
  exact h3 _ ref hr

/-- A node that is listed stays listed, also over restarts. -/
theorem listed_after {s t : CSt} (hl : Life db s) (h : After db s t) {id : Int} (hi : s.list.get id ≠ none) : t.list.get id ≠ none := by
  induction h with
  | now => exact hi
  | step ha _ hs ih =>
    obtain ⟨r, hr⟩ := Option.ne_none_iff_exists'.1 ih
    obtain ⟨r', hr'⟩ := Verif.Props.list_keeps hs id r hr
    rw [hr']; simp
  | @restart t c o o' f ha hc ih =>
    obtain ⟨r, hr⟩ := Option.ne_none_iff_exists'.1 ih
    obtain ⟨ns, rfl, -, h3⟩ := restart_nodes (after_life hl ha) hc
    obtain ⟨n, hn, rfl⟩ := h3 id r hr
    exact (load_knows ns (newController f)).1 n hn

/-- C123: and so does what is saved at any later time, in this life or any later one: once the nodes of a network have been discovered,
every later start on that network is undisturbed. -/
theorem C123_every_later_start {s t c : CSt} (h : Life db s) (hd : s.disc = .done) (ha : After db s t) {o o' : Order} {f : Bool}
    (hload : loadConfig o o' (some (saveText t.nodes)) (newController f) = .ret false c) :
    ∃ ns, c = start f ns ∧ GoodFile ns ∧ ∀ k : List CEv,
      (∀ bm, CEv.reply bm ∈ k → ∃ bm', CEv.reply bm' ∈ s.hist ∧ ∀ i : Nat, bm[i]? = some true → bm'[i]? = some true) → SameNetwork ns k := by
  obtain ⟨ns, h1, h2, h3⟩ := restart_nodes (after_life h ha) hload
  refine ⟨ns, h1, h2, fun k hk bm hb i hi hx => ?_⟩
  obtain ⟨bm', g1, g2⟩ := hk bm hb
  obtain ⟨ref, hr⟩ := C123_registered h hd g1 hi (g2 i hx)
  obtain ⟨r, hr'⟩ := Option.ne_none_iff_exists'.1 (listed_after h ha (id := ((i + 1 : Nat) : Int)) (by rw [hr]; simp))
  exact h3 _ r hr'

/-- A first life in which the discovery has found node 2, and the second life, whose file can be saved in turn. -/
example : ∃ s c, Life demoDB s ∧ s.disc = .done ∧ CEv.reply [true, true] ∈ s.hist ∧
    loadConfig inOrder inOrder (some (saveText s.nodes)) (newController true) = .ret false c ∧ After demoDB s c := by
  have h : ∃ s, cRun demoDB (newController true) discOne = some s ∧ s.disc = .done ∧ CEv.reply [true, true] ∈ s.hist :=
    ⟨_, rfl, rfl, by decide +kernel⟩
  obtain ⟨s, hs, hd, hr⟩ := h
  have ht : exFileText = saveText s.nodes := by simp only [exFileText, hs]
  refine ⟨s, _, life_run discOne (.first true) (fun l hl => ?_) hs, hd, hr, by rw [← ht]; exact exFile_load,
    .restart inOrder inOrder true .now (by rw [← ht]; exact exFile_load)⟩
  exact identified_sensible l (by simp only [identifiedRun, List.append_assoc]; exact List.mem_append_left _ hl)

end Verif.Props
