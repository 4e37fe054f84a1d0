import Verif.Proofs.V2IE
namespace Verif.V2
open Res Spec

variable (g : UInt8 → Bool)

theorem rawEncs_append (a b : List IE) : rawEncs g (a ++ b) = rawEncs g a ++ rawEncs g b := by
  induction a with
  | nil => simp [rawEncs]
  | cons x xs ih => simp [rawEncs, ih]

theorem newGrouped_go_eq (ies : List (Option IE)) (p : Bytes) (cs : List IE) :
    newGrouped.go g ies p cs = ok (some (p ++ rawEncs g (ies.filterMap id), cs ++ ies.filterMap id)) := by
  induction ies generalizing p cs with
  | nil => simp [newGrouped.go, rawEncs]
  | cons x xs ih =>
    cases x with
    | none => simp [newGrouped.go, ih]
    | some c => simp [newGrouped.go, ih, marshal_eq, rawEncs]

theorem newGrouped_eq (t : UInt8) (ies : List (Option IE)) :
    newGrouped g t ies = ok (some (.mk t (UInt16.ofNat (rawEncs g (ies.filterMap id)).length) 0
      (rawEncs g (ies.filterMap id)) (ies.filterMap id))) := by
  simp [newGrouped, newIE, IE.setLength, newGrouped_go_eq]

theorem add_go_eq (ies : List (Option IE)) (p : Bytes) (cs : List IE) :
    IE.add.go g ies p cs = ok (p ++ rawEncs g (ies.filterMap id), cs ++ ies.filterMap id) := by
  induction ies generalizing p cs with
  | nil => simp [IE.add.go, rawEncs]
  | cons x xs ih =>
    cases x with
    | none => simp [IE.add.go, ih]
    | some c => simp [IE.add.go, ih, marshal_eq, rawEncs]

theorem add_eq {t n i p cs} (hg : g t = true) (ies : List (Option IE)) :
    (IE.mk t n i p cs).add g ies = ok (.mk t (UInt16.ofNat (p ++ rawEncs g (ies.filterMap id)).length) i
      (p ++ rawEncs g (ies.filterMap id)) (cs ++ ies.filterMap id)) := by
  simp [IE.add, hg, add_go_eq, IE.setLength]

/-- the children that survive `Remove(typ, ins)` -/
def keep (typ ins : UInt8) (cs : List IE) : List IE :=
  cs.filter (fun c => !(c.typ == typ && c.instance' == ins))

theorem remove_go_eq (typ ins : UInt8) (rest : List IE) (done : List IE) (p : Bytes) :
    IE.remove.go g typ ins rest (done.map some ++ List.replicate rest.length none) done.length p
      = ok ((done ++ keep typ ins rest).map some, p ++ rawEncs g (keep typ ins rest)) := by
  induction rest generalizing done p with
  | nil => simp [IE.remove.go, keep, rawEncs]
  | cons c r ih =>
    rw [IE.remove.go]
    by_cases hc : c.typ = typ ∧ c.instance' = ins
    · rw [if_pos hc, if_neg (by simp)]
      have hlen : (done.map some ++ List.replicate (c :: r).length (none : Option IE)).length - 1
          = done.length + r.length := by simp
      have htake : (done.map some ++ List.replicate (c :: r).length (none : Option IE)).take (done.length + r.length)
          = done.map some ++ List.replicate r.length none := by
        rw [List.take_append]; simp
        exact List.take_of_length_le (by simp)
      rw [hlen, htake, ih]
      simp [keep, hc]
    · rw [if_neg hc, if_pos (by simp)]
      have hset : (done.map some ++ List.replicate (c :: r).length (none : Option IE)).set done.length (some c)
          = (done ++ [c]).map some ++ List.replicate r.length none := by
        rw [List.set_append_right _ _ (by simp)]
        simp [List.replicate_succ]
      simp only [marshal_eq, hset]
      have := ih (done ++ [c]) (p ++ rawEnc g c)
      rw [List.length_append] at this
      simp only [List.length_singleton] at this
      rw [this]
      have hk : keep typ ins (c :: r) = c :: keep typ ins r := by
        simp only [keep]
        rw [List.filter_cons_of_pos (by simp; exact Decidable.not_and_iff_or_not.mp hc)]
      rw [hk]; simp [rawEncs]

theorem remove_eq {t n i p cs} (hg : g t = true) (typ ins : UInt8) :
    (IE.mk t n i p cs).remove g typ ins = ok (.mk t (UInt16.ofNat (rawEncs g (keep typ ins cs)).length) i
      (rawEncs g (keep typ ins cs)) (keep typ ins cs)) := by
  have := remove_go_eq g typ ins cs [] []
  simp only [List.map_nil, List.nil_append, List.length_nil] at this
  rw [IE.remove, if_pos hg]
  simp only [this, bind_ok]
  have h1 : ((keep typ ins cs).map some).all Option.isSome = true := by simp
  have h2 : ((keep typ ins cs).map some).filterMap id = keep typ ins cs := by simp
  rw [if_pos h1, h2, IE.setLength]

end Verif.V2
