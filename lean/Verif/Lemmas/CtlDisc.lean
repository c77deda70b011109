import Verif.Lemmas.CtlRun

/-
Discovery.
-/

set_option linter.unusedSimpArgs false
set_option linter.unusedVariables false
set_option maxHeartbeats 4000000

namespace Verif.Lemmas.Ctl

open Verif.Go Verif.Model Verif.Lemmas.NodeM Verif.Spec

@[simp] theorem announced_put (s : CSt) (ref : Nat) (n : NSt) : announced (s.put ref n).hist = announced s.hist := by
  unfold CSt.put; simp only; split <;> rfl

@[simp] theorem announced_push (s : CSt) (id : Int) :
    announced (s.push (.discovered id)).hist = announced s.hist ++ [id] := rfl

/-- The node that has not been announced yet. -/
def DiscAt.silent : DiscAt → Option Nat
  | .add r _ | .locked r _ | .writing r _ | .unlock r _ | .announce r _ => some r
  | _ => none

/-- Ids that are not in the list yet. -/
def unadded (s : CSt) : List Int :=
  match DiscAt.adding s.disc with
  | some r => (s.heap r).node.id :: DiscAt.todo s.disc
  | none => DiscAt.todo s.disc

/-- Ids that have not been announced yet. -/
def unannounced (s : CSt) : List Int :=
  match DiscAt.silent s.disc with
  | some r => (s.heap r).node.id :: DiscAt.todo s.disc
  | none => DiscAt.todo s.disc

/-- During a discovery of `ids` that began with list `base`, `n0` nodes and announcements `ann0`. -/
structure DInv (base : GoMap Int Nat) (n0 : Nat) (ids ann0 : List Int) (s : CSt) : Prop where
  before : DiscAt.before s.disc = false
  keep : ∀ id r, base.get id = some r → s.list.get id = some r
  new : ∀ id, base.get id = none → ((s.list.get id).isSome = true ↔ id ∈ ids ∧ id ∉ unadded s)
  sub : ∀ id ∈ unadded s, id ∈ ids
  ge : n0 ≤ s.nHeap
  newRef : ∀ id r, base.get id = none → s.list.get id = some r → n0 ≤ r
  addRef : ∀ r, DiscAt.adding s.disc = some r → n0 ≤ r
  ann : ∃ pre, ids = pre ++ unannounced s ∧
    announced s.hist = ann0 ++ pre.filter fun id => (base.get id).isNone
  silent : ∀ r, DiscAt.silent s.disc = some r → base.get (s.heap r).node.id = none

/-- Steps other than those of the discovery leave the list alone. -/
theorem other_step {db : DB} {s s' : CSt} {l : CLabel} (h : cStep db s l = some s') (h1 : ∀ a, l ≠ .disc a)
    (h2 : l ≠ .startDisc) : s'.disc = s.disc ∧ s'.list = s.list ∧ s'.nHeap = s.nHeap ∧
      announced s'.hist = announced s.hist ∧ ∀ r, (s'.heap r).node.id = (s.heap r).node.id := by
  ctl_step h
  all_goals try (exact absurd rfl h2)
  all_goals try (exact absurd rfl (h1 _))
  all_goals first
    | exact ⟨rfl, rfl, rfl, rfl, fun _ => rfl⟩
    | (have f := (frame_step (by assumption)).id
       refine ⟨by simp, by simp, by simp, by simp [announced], fun r => ?_⟩
       simp only [put_heap, updN]
       split <;> simp [*])

theorem dinv_step {db : DB} {base : GoMap Int Nat} {n0 : Nat} {ids ann0 : List Int} {s s' : CSt} {l : CLabel}
    (hc : CInv s) (hi : DInv base n0 ids ann0 s) (h : cStep db s l = some s') : DInv base n0 ids ann0 s' := by
  by_cases hs : l = .startDisc
  · subst hs
    have := hi.before
    unfold cStep at h
    split at h
    · cases h
    simp only at h
    split at h
    · rename_i e; rw [e] at this; cases this
    · cases h
  by_cases hd : ∀ a, l ≠ .disc a
  · obtain ⟨e1, e2, e3, e4, e5⟩ := other_step h hd hs
    obtain ⟨k1, k2, k3, k4, k5, k6, k7, k8, k9⟩ := hi
    have u1 : unadded s' = unadded s := by unfold unadded; simp only [e1, e5]
    have u2 : unannounced s' = unannounced s := by unfold unannounced; simp only [e1, e5]
    constructor <;> simp only [u1, u2, e1, e2, e3, e4, e5] <;> assumption
  · simp only [ne_eq, Classical.not_forall, Classical.not_not] at hd
    obtain ⟨a, rfl⟩ := hd
    obtain ⟨k1, k2, k3, k4, k5, k6, k7, k8, k9⟩ := hi
    have c4 := hc.known
    have c5 := hc.adding
    have c6 := hc.ref
    have c11 := hc.nodup
    have c12 := hc.refNew
    clear hc
    unfold unadded at k3 k4
    unfold unannounced at k8
    unfold cStep at h
    split at h
    · cases h
    simp only [discStep] at h
    repeat' split at h
    all_goals try (rw [Option.map_eq_some_iff] at h; obtain ⟨n', hn', h⟩ := h)
    all_goals try injection h with h
    all_goals try subst h
    all_goals try (cases h; done)
    all_goals try have f := (frame_step (by assumption)).id
    all_goals have q1 := congrArg DiscAt.ref (by assumption : CSt.disc s = _)
    all_goals have q2 := congrArg DiscAt.adding (by assumption : CSt.disc s = _)
    all_goals have q3 := congrArg DiscAt.silent (by assumption : CSt.disc s = _)
    all_goals have q4 := congrArg DiscAt.todo (by assumption : CSt.disc s = _)
    all_goals have q5 := congrArg DiscAt.before (by assumption : CSt.disc s = _)
    all_goals (
      conv at q1 => rhs; whnf
      conv at q2 => rhs; whnf
      conv at q3 => rhs; whnf
      conv at q4 => rhs; whnf
      conv at q5 => rhs; whnf)
    all_goals try (rw [q5] at k1; cases k1; done)
    all_goals simp only [q1, q2, q3, q4] at k3 k4 k7 k8 k9 c4 c5 c6 c11 c12
    all_goals clear k1
    all_goals constructor
    all_goals try simp only [unadded, unannounced, put_heap, put_nHeap, put_list, put_disc, put_nDeliv, put_deliv, put_crashed, push_heap, push_nHeap, push_list, push_disc, push_nDeliv, push_deliv, push_crashed, announced_put, announced_push, DiscAt.ref, DiscAt.adding, DiscAt.silent, DiscAt.todo, DiscAt.before, announced]
    all_goals first
      | assumption
      | grind [updN, get_put, start_new]
      | skip
    case h_1.ann =>
      rename_i id todo _ _ ref hg
      obtain ⟨pre, e1, e2⟩ := k8
      refine ⟨pre ++ [id], by simp [e1], ?_⟩
      have hb : base.get id ≠ none := by
        intro hb
        have := (k3 id hb).1 (by rw [hg]; rfl)
        exact this.2 (by simp)
      rw [List.filter_append, e2]
      cases hx : base.get id with
      | none => exact absurd hx hb
      | some r => simp [hx]
    case h_2.silent =>
      rename_i id todo _ _ hg
      intro r hr
      cases hr
      simp only [updN, if_true, (start_new id).1]
      cases hx : base.get id with
      | none => rfl
      | some r => rw [k2 id r hx] at hg; cases hg
    case h_10.ann =>
      rename_i ref todo _
      obtain ⟨pre, e1, e2⟩ := k8
      refine ⟨pre ++ [(s.heap ref).node.id], by simp [e1], ?_⟩
      rw [List.filter_append, e2]
      simp [k9 ref rfl]

theorem dinv_run {db : DB} {f : Bool} {ns : List Node} {base : GoMap Int Nat} {n0 : Nat} {ids ann0 : List Int}
    (hg : GoodFile ns) : ∀ (ls : List CLabel) (s s' : CSt), CReach db f ns s → DInv base n0 ids ann0 s →
      cRun db s ls = some s' → DInv base n0 ids ann0 s' := by
  intro ls
  induction ls with
  | nil => intro s s' _ hi h; cases h; exact hi
  | cons l ls ih =>
    intro s s' hr hi h
    simp only [cRun] at h
    cases hl : cStep db s l with
    | none => rw [hl] at h; cases h
    | some s1 =>
      rw [hl] at h
      exact ih s1 s' (creach_step hr hl) (dinv_step (cinv hg hr) hi hl) h

/-- The reply starts a discovery. -/
theorem dinv_reply {db : DB} {s s' : CSt} {bm : List Bool} (hw : s.disc = .wait)
    (h : cStep db s (.disc (.nodes bm)) = some s') :
    DInv s.list s.nHeap (activeIds bm) (announced s.hist) s' ∧
      s' = { s with disc := .loop (activeIds bm), hist := .reply bm :: s.hist } := by
  have e : s' = { s with disc := .loop (activeIds bm), hist := .reply bm :: s.hist } := by
    unfold cStep at h
    split at h
    · cases h
    simp only [discStep, hw] at h
    cases h; rfl
  refine ⟨?_, e⟩
  subst e
  constructor <;> simp only [unadded, unannounced, DiscAt.before, DiscAt.adding, DiscAt.todo, DiscAt.silent]
  · exact fun _ _ h => h
  · intro id hb; simp [hb]
  · exact fun _ h => h
  · exact Nat.le_refl _
  · intro id r h1 h2; rw [h1] at h2; cases h2
  · intro r h; cases h
  · exact ⟨[], by simp, by simp [announced]⟩
  · intro r h; cases h

theorem active_mem (bm : List Bool) (id : Int) : id ∈ activeIds bm ↔ Active bm id := by
  unfold activeIds Active
  simp only [List.mem_map, List.mem_filter, Bool.and_eq_true, bne_iff_ne, ne_eq, Prod.exists]
  constructor
  · rintro ⟨b, i, ⟨h1, h2, h3⟩, rfl⟩
    rw [List.mem_zipIdx_iff_getElem?] at h1
    exact ⟨i, h3, by simpa [h2] using h1, by push_cast; rfl⟩
  · rintro ⟨i, h1, h2, rfl⟩
    exact ⟨true, i, ⟨List.mem_zipIdx_iff_getElem?.2 h2, rfl, h1⟩, by push_cast; rfl⟩

theorem activeIds_sorted (bm : List Bool) : (activeIds bm).Pairwise (· < ·) := by
  unfold activeIds
  refine List.Pairwise.map (R := fun p q => p.2 < q.2) _ ?_ (List.Pairwise.filter _ ?_)
  · intro a b h; omega
  · have h := List.pairwise_lt_range' (s := 0) (n := bm.length) (step := 1)
    have e : bm.zipIdx.map Prod.snd = List.range' 0 bm.length := by simp [List.zipIdx_map_snd]
    rw [← e] at h
    exact List.pairwise_map.1 h

end Verif.Lemmas.Ctl
