import Verif.Props.V2IE
import Verif.Props.Utils
import Verif.Props.V2Conn
import Verif.Props.URead
import Verif.Model.Typed.V1
/-
Departures around C02, C07, C12, C19 and C40, and C68: short inputs and buffers, piggybacked messages, TEID Data II, a DSCP value
that is not restored.
-/
namespace Verif.V2
open Res Spec
variable (g : UInt8 → Bool)

theorem marshalChildren_short : ∀ (cs : List IE) (pre r : Bytes), r.length < marshalLens g cs →
    ∃ k, k < cs.length ∧ r.length < marshalLens g (cs.take (k + 1)) ∧ marshalLens g (cs.take k) ≤ r.length ∧
      marshalChildren g cs pre.length (pre ++ r) =
        ok (pre ++ rawEncs g (cs.take k) ++ r.drop (marshalLens g (cs.take k)))
  | [], pre, r, h => by simp [marshalLens] at h
  | c :: cs, pre, r, h => by
    rw [marshalLens] at h
    by_cases hc : r.length < c.marshalLen g
    · refine ⟨0, by simp, by simpa [marshalLens] using hc, by simp [marshalLens], ?_⟩
      rw [marshalChildren, if_pos (by simp; omega)]
      simp [rawEncs, marshalLens]
    · obtain ⟨k, h1, h2, h3, h4⟩ := marshalChildren_short cs (pre ++ rawEnc g c) (r.drop (c.marshalLen g))
        (by simp; omega)
      rw [List.length_drop] at h2 h3
      refine ⟨k + 1, by simpa using h1, ?_, ?_, ?_⟩
      · rw [List.take_succ_cons, marshalLens]; omega
      · rw [List.take_succ_cons, marshalLens]; omega
      · rw [marshalChildren, if_neg (by simp; omega)]
        simp only [onSub]
        rw [slice_of_le (by omega) (by simp; omega)]
        simp only [bind_ok, List.drop_left, Nat.add_sub_cancel_left]
        rw [marshalTo_eq g c _ (by simp; omega)]
        simp only [bind_ok, List.take_left]
        have e1 : (List.take (c.marshalLen g) r).drop (c.marshalLen g) = [] := by simp
        rw [e1]
        have e2 : (pre ++ r).drop (pre.length + c.marshalLen g) = r.drop (c.marshalLen g) := by simp
        rw [e2, List.append_nil]
        rw [List.length_append, length_rawEnc] at h4
        rw [h4, List.take_succ_cons, rawEncs, marshalLens, List.drop_drop]
        simp [List.append_assoc]

/-- C07, a buffer that is too small: fewer than four octets are refused, and so is any short buffer for an element that is
not grouped. -/
theorem C07_short_refused (x : IE) (b : Bytes) (h : b.length < 4 ∨ (g x.typ = false ∧ b.length < x.marshalLen g)) :
    x.marshalTo g b = err .eof := by
  obtain ⟨t, n, i, p, cs⟩ := x
  by_cases h4 : b.length < 4
  · rw [IE.marshalTo, if_pos h4]
  · have h := h.resolve_left h4
    obtain ⟨hg, hl⟩ := h
    simp only [IE.typ] at hg
    match b, Nat.le_of_not_lt h4 with
    | b0 :: b1 :: b2 :: b3 :: r, _ =>
      rw [IE.marshalTo, if_neg (by simp)]
      simp only [setAt, copyAt, be16, List.length_cons, List.length_nil]
      rw [if_pos (by omega)]
      simp only [bind_ok, List.set_cons_zero, List.length_cons]
      rw [if_pos (by omega)]
      simp only [bind_ok]
      rw [if_pos (by simp)]
      simp only [bind_ok, hg]
      rw [if_neg (by simp), if_pos (by simpa using hl)]

/-- C07 fails for grouped elements: into every buffer of at least four octets that is too small, serialisation succeeds; it
writes the header with the full length and as many whole children as fit, and leaves the rest of the buffer as it was. -/
theorem C07_grouped_short_wrong (t : UInt8) (n : UInt16) (i : UInt8) (p : Bytes) (cs : List IE) (hg : g t = true)
    (b : Bytes) (h4 : 4 ≤ b.length) (hl : b.length < (IE.mk t n i p cs).marshalLen g) :
    ∃ k, k < cs.length ∧ (IE.mk t n i p cs).marshalTo g b =
      ok ([t] ++ be16 n ++ [i] ++ rawEncs g (cs.take k) ++ b.drop (4 + marshalLens g (cs.take k))) := by
  match b, h4 with
  | b0 :: b1 :: b2 :: b3 :: r, _ =>
    obtain ⟨x, y, hxy⟩ : ∃ x y, be16 n = [x, y] := ⟨_, _, rfl⟩
    rw [IE.marshalLen, if_pos hg] at hl
    obtain ⟨k, h1, _, _, h4⟩ := marshalChildren_short g cs [t, x, y, i] r (by simp at hl; omega)
    refine ⟨k, h1, ?_⟩
    rw [IE.marshalTo, if_neg (by simp)]
    simp only [setAt, copyAt, hxy, List.length_cons, List.length_nil]
    rw [if_pos (by omega)]
    simp only [bind_ok, List.set_cons_zero, List.length_cons]
    rw [if_pos (by omega)]
    simp only [bind_ok]
    rw [if_pos (by simp)]
    simp
    rw [if_pos hg]
    simp only [List.length_cons, List.length_nil, List.cons_append, List.nil_append, Nat.zero_add, Nat.reduceAdd] at h4
    rw [h4, Nat.add_comm 4]
    simp

example : exTree.marshalTo defaultGrouped (List.replicate 10 7) = ok [93, 0, 14, 0, 73, 0, 1, 0, 5, 7] := by decide
example : (newIE 1 0 [1, 2]).marshalTo defaultGrouped (List.replicate 5 7) = err .eof := by decide

end Verif.V2

namespace Verif.Utils
open Res

theorem length_tbcd : ∀ s : Bytes, (tbcd s).length = (s.length + 1) / 2
  | [] => rfl
  | [_] => by simp [tbcd]
  | _ :: _ :: r => by simp [tbcd, length_tbcd r]; omega

/-- C02, digit strings of any length: `EncodePLMN` panics exactly when the MNC does not have two digits and either the MNC
has fewer than three or the MCC fewer than three. -/
theorem C02_plmn_panics_iff (mcc mnc : Bytes) (hc : Digits mcc) (hn : Digits mnc) :
    encodePLMN mcc mnc = .panic ↔ mnc.length ≠ 2 ∧ (mnc.length < 3 ∨ mcc.length < 3) := by
  rw [encodePLMN, C01_octets _ hc, C01_octets _ hn]
  have l1 := length_tbcd mcc
  have l2 := length_tbcd mnc
  simp only [bind_ok]
  by_cases h2 : mnc.length = 2
  · simp [h2]
  · rw [if_neg h2]
    generalize tbcd mcc = c at l1
    generalize tbcd mnc = n at l2
    match c, n with
    | [], n => simp at l1; simp [idx, h2]; omega
    | [a], n => simp at l1; simp [idx, h2]; omega
    | a :: b :: r, [] => simp at l1 l2; simp [idx, h2]; omega
    | a :: b :: r, [_] => simp at l1 l2; simp [idx, h2]; omega
    | a :: b :: r, _ :: _ :: _ => simp at l1 l2; simp [idx, h2]; omega

example : encodePLMN [48, 48, 49] [49] = .panic := by decide
end Verif.Utils

namespace Verif.V2
open Res
variable (g : UInt8 → Bool)

/-- octets after the announced length have no influence on the header -/
theorem parse_append (b tail : Bytes) (f t l0 l1 : UInt8) (r : Bytes) (hb : b = f :: t :: l0 :: l1 :: r)
    (hl : b.length = l0.toNat * 256 + l1.toNat + 4) (h12 : 12 ≤ b.length) :
    Header.parse (b ++ tail) = Header.parse b := by
  subst hb
  match r, h12 with
  | a0 :: a1 :: a2 :: a3 :: s0 :: s1 :: s2 :: sp :: r, _ =>
    rw [Header.parse_eq, Header.parse_eq]
    simp only [List.length_cons] at hl
    simp only [List.cons_append, Header.parseSpec, List.length_append]
    by_cases h4 : l0.toNat * 256 + l1.toNat < 4
    · rw [if_pos h4, if_pos h4]
    have c1 : ¬ l0.toNat * 256 + l1.toNat + 4 > 12 + r.length := by omega
    have c2 : ¬ l0.toNat * 256 + l1.toNat + 4 > 12 + (r.length + tail.length) := by omega
    have e1 : (r ++ tail).take (l0.toNat * 256 + l1.toNat - 8) = r.take (l0.toNat * 256 + l1.toNat - 8) := by
      rw [List.take_append_of_le_length (by omega)]
    have e2 : (s0 :: s1 :: s2 :: sp :: (r ++ tail)).take (l0.toNat * 256 + l1.toNat - 4) =
        (s0 :: s1 :: s2 :: sp :: r).take (l0.toNat * 256 + l1.toNat - 4) := by
      rw [← List.cons_append, ← List.cons_append, ← List.cons_append, ← List.cons_append,
        List.take_append_of_le_length (by simp; omega)]
    simp only [if_neg c1, if_neg c2, e1, e2]

/-- C68: of a datagram that holds a message (of at least 12 octets, with the right Length) and then anything else, the rest has
no influence on how the first message is read and handled.  Missing: when the P flag is set the rest is a second message,
which has no influence either (`C68_piggyback_wrong`). -/
theorem C68_first_only_partial (b tail : Bytes) (f t l0 l1 : UInt8) (r : Bytes) (hb : b = f :: t :: l0 :: l1 :: r)
    (hl : b.length = l0.toNat * 256 + l1.toNat + 4) (h12 : 12 ≤ b.length) :
    parseMsg g (b ++ tail) = parseMsg g b ∧
    ∀ (c : Conn.Conn) (a : Send.Addr) (w : Bool), Conn.serveDatagram g c a (b ++ tail) w = Conn.serveDatagram g c a b w := by
  have h : parseMsg g (b ++ tail) = parseMsg g b := by
    have hp := parse_append b tail f t l0 l1 r hb hl h12
    subst hb
    unfold parseMsg
    rw [if_neg (by simp), if_neg (by simp)]
    have e : idx ((f :: t :: l0 :: l1 :: r) ++ tail) 1 = idx (f :: t :: l0 :: l1 :: r) 1 := rfl
    rw [e]
    simp only [Msg.unmarshal]
    have hp' : hdrOps.parse ((f :: t :: l0 :: l1 :: r) ++ tail) = hdrOps.parse (f :: t :: l0 :: l1 :: r) := hp
    rw [hp']
  exact ⟨h, fun c a w => by unfold Conn.serveDatagram; rw [h]⟩

/-- C68 fails for the case of TS 29.274 clause 5.5.1, a Create Session Response with a Create Bearer Request piggybacked on it:
the handler of the second message is not called -/
theorem C68_piggyback_wrong : (match Conn.serveDatagram defaultGrouped
      { Conn.exConn with handlers := [(33, .app 1), (95, .app 2)], byTeid := [(9, some 0)] } "peer"
      ([0x58, 33, 0, 8, 0, 0, 0, 9, 0, 0, 1, 0] ++ [0x48, 95, 0, 8, 0, 0, 0, 9, 0, 0, 2, 0]) true with
    | ([.call id _ m], ok ()) => some (id, m.hdr.isPiggybacking) | _ => none) = some (1, true) := by decide +kernel

/-- the piggybacked message alone reaches its handler -/
example : (match Conn.serveDatagram defaultGrouped
      { Conn.exConn with handlers := [(33, .app 1), (95, .app 2)], byTeid := [(9, some 0)] } "peer"
      [0x48, 95, 0, 8, 0, 0, 0, 9, 0, 0, 2, 0] true with
    | ([.call id _ _], ok ()) => some id | _ => none) = some 2 := by decide +kernel

/-- C12: a Version Not Supported Indication is built with the T flag and a TEID field, which TS 29.274 clause 5.1 and 7.1.3 give
to no such message -/
theorem C12_version_not_supported_wrong (seq : UInt32) :
    (newMessage g Tab.versionNotSupportedIndication 0 seq []).hdr.hasTEID = true := by
  have : (newMessage g Tab.versionNotSupportedIndication 0 seq []).hdr.flags = 0x48 := rfl
  unfold Header.hasTEID
  rw [this]
  decide

example : (match marshalMsg defaultGrouped (newMessage defaultGrouped Tab.versionNotSupportedIndication 0 5 []) with
    | ok (_, b) => b | _ => []) = [0x48, 3, 0, 8, 0, 0, 0, 0, 0, 0, 5, 0] := by decide +kernel

end Verif.V2

namespace Verif.TLV
open Res

/-- C19 fails for Tunnel Endpoint Identifier Data II as TS 29.060 clause 7.7.15 defines it (type, NSAPI, four octets of TEID):
the NSAPI is read as the first octet of the TEID, and reading goes on with the last octet of the TEID as the type of
the next element. -/
theorem C19_teid_data_ii_wrong (n t0 t1 t2 t3 : UInt8) (rest : Bytes) :
    ∃ x : IE, parse v1 ([18, n, t0, t1, t2, t3] ++ rest) = ok x ∧ x.typ = 18 ∧ x.payload = [n, t0, t1, t2] ∧
      x.marshalLen v1 = 5 ∧ x.teid = rd32 [n, t0, t1, t2] := by
  refine ⟨⟨18, 0, [n, t0, t1, t2]⟩, ?_, rfl, rfl, rfl, rfl⟩
  have e : (IE.mk 18 0 []).marshalLen v1 = 5 := rfl
  simp [parse, Cfg.isEhtl, isTV, decodeTV, e, slice]
  rw [if_neg (by omega), if_neg (by omega), if_neg (by omega)]

/-- TEID 1 of NSAPI 5, followed by a Recovery element: read as TEID 0x05000000, a Cause of 14 and half an element -/
example : parse v1 [18, 5, 0, 0, 0, 1, 14, 7] = ok ⟨18, 0, [5, 0, 0, 0]⟩ ∧ parse v1 [1, 14, 7] = ok ⟨1, 0, [14]⟩ ∧
    parseMulti v1 [18, 5, 0, 0, 0, 1, 14, 7] = err .tooShortParse := by decide

end Verif.TLV

namespace Verif.V1.Dscp

/-- C40 fails when the old value cannot be set again: the call returns no error, and the value of the call stays in force for
all datagrams to come. -/
theorem C40_restore_silent_wrong (o : Int) (c : Call) :
    let s := run (init o) [.call 0 c, .lock 0, .get 0 true, .set 0 true, .write 0 true, .restore 0 false, .unlock 0]
    s.rets = [(0, c, true)] ∧ s.opt = c.dscp ∧ s.owner = none ∧ s.pc 0 = .idle := by
  simp [run, init, step, setPc]

end Verif.V1.Dscp

namespace Verif.V2
open Res Spec
/-! ### cases that meet the hypotheses -/

example := C07_short_refused (g := defaultGrouped) (newIE 1 0 [1, 2]) (List.replicate 5 7) (.inr (by decide))
example := C07_grouped_short_wrong (g := defaultGrouped) 93 14 0 [73, 0, 1, 0, 5, 93, 0, 5, 1, 73, 0, 1, 0, 6]
  [.mk 73 1 0 [5] [], .mk 93 5 1 [73, 0, 1, 0, 6] [.mk 73 1 0 [6] []]] (by decide) (List.replicate 10 7) (by decide) (by decide)
example := Utils.C02_plmn_panics_iff [48, 48, 49] [49] (by decide) (by decide)
example := C68_first_only_partial (g := defaultGrouped) _ [0x48, 95, 0, 8, 0, 0, 0, 9, 0, 0, 2, 0] 0x58 33 0 8 [0, 0, 0, 9, 0, 0, 1, 0] rfl
  (by decide) (by decide)
end Verif.V2
