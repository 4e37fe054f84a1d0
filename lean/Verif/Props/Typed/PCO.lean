import Verif.Model.Typed.PCO
import Verif.Proofs.Typed.Writes
import Verif.Props.Typed.QoS
/-
Property theorem C47 (protocol configuration options, PPP, PAP, CHAP, IPCP), and C48 for them.
-/
set_option linter.unusedSimpArgs false
namespace Verif.V2
open Res NetIP

variable (g : UInt8 → Bool)

/-! ### the specification, TS 24.008 10.5.6.3 and RFC 1661, 1334, 1994, 1332 -/

def encContainer (c : Container) : Bytes := be16 c.ident ++ [UInt8.ofNat c.contents.length] ++ c.contents
def encContainers (cs : List Container) : Bytes := (cs.map encContainer).flatten
/-- extension bit 1, configuration protocol, containers -/
def encPCO (proto : UInt8) (opts : List Container) : Bytes := [UInt8.ofNat (128 + proto.toNat)] ++ encContainers opts

def encPPP (code ident : UInt8) (payload : Bytes) : Bytes :=
  [code, ident] ++ be16 (UInt16.ofNat (4 + payload.length)) ++ payload
def encPAP (ident pw : Bytes) : Bytes := [UInt8.ofNat ident.length] ++ ident ++ [UInt8.ofNat pw.length] ++ pw
def encCHAP (value name : Bytes) : Bytes := [UInt8.ofNat value.length] ++ value ++ name
def encIPCP (t : UInt8) (payload : Bytes) : Bytes := [t, UInt8.ofNat (2 + payload.length)] ++ payload

/-- a container whose length octet is right -/
def ContainerOK (c : Container) : Prop := c.contents.length < 256 ∧ c.len = UInt8.ofNat c.contents.length

theorem newContainer_ok (ident : UInt16) {contents : Bytes} (h : contents.length < 256) :
    ContainerOK (newContainer ident contents) := ⟨h, rfl⟩

/-! ### containers -/

theorem container_marshalLen (c : Container) : c.marshalLen = (encContainer c).length := by
  simp [Container.marshalLen, encContainer]; omega

theorem ofNat_zero_iff {n : Nat} (h : n < 256) : UInt8.ofNat n = 0 ↔ n = 0 := by
  constructor
  · intro e
    have := congrArg UInt8.toNat e
    simp only [UInt8.toNat_ofNat', UInt8.toNat_zero] at this
    omega
  · rintro rfl; rfl

theorem toNat_ofNat8 {n : Nat} (h : n < 256) : (UInt8.ofNat n).toNat = n := by simp only [UInt8.toNat_ofNat']; omega

theorem copyFrom_append {pre z src : Bytes} {lo : Nat} (h0 : lo = pre.length) (h : src.length ≤ z.length) :
    copyFrom (pre ++ z) lo src = ok (pre ++ src ++ z.drop src.length) := by
  subst h0
  rw [copyFrom, copyAt, if_pos (by simp)]
  have e1 : (pre ++ z).length - pre.length = z.length := by simp
  rw [e1, List.take_of_length_le h, Nat.min_eq_right h]
  simp [List.drop_append]

theorem container_writes {c : Container} (hc : ContainerOK c) : Writes c.marshalTo (encContainer c) := by
  intro z hz
  obtain ⟨h1, h2⟩ := hc
  obtain ⟨p, q, hpq⟩ : ∃ p q, be16 c.ident = [p, q] := ⟨_, _, rfl⟩
  simp only [encContainer, hpq, List.length_append, List.length_cons, List.length_nil] at hz
  match z, hz with
  | x :: y :: w :: z, hz =>
    simp only [List.length_cons] at hz
    rw [Container.marshalTo, show x :: y :: w :: z = [] ++ (x :: y :: w :: z) from rfl,
      copyAt_append (by rfl) (by rfl) (by simp)]
    simp only [bind_ok, hpq, List.nil_append, List.length_cons, List.length_nil, Nat.zero_add, Nat.reduceAdd,
      List.drop_succ_cons, List.drop_zero]
    rw [setAt_append (by rfl) (by simp)]
    simp only [bind_ok, List.drop_succ_cons, List.drop_zero]
    by_cases h0 : c.len = 0
    · rw [if_neg (by simp [h0])]
      have : c.contents = [] := by
        rw [h2, ofNat_zero_iff h1] at h0; exact List.length_eq_zero_iff.mp h0
      simp [encContainer, hpq, this, h2]
    · rw [if_pos h0, copyFrom_append (by rfl) (by omega)]
      simp [encContainer, hpq, h2]
  | [], hz => simp at hz
  | [_], hz => simp at hz; omega
  | [_, _], hz => simp at hz; omega

theorem parseContainer_eq {c : Container} (hc : ContainerOK c) (rest : Bytes) :
    parseContainer (encContainer c ++ rest) = ok c := by
  obtain ⟨h1, h2⟩ := hc
  have hn : c.len.toNat = c.contents.length := by rw [h2, toNat_ofNat8 h1]
  have e : encContainer c ++ rest = be16 c.ident ++ (c.len :: (c.contents ++ rest)) := by simp [encContainer, h2]
  rw [e, parseContainer, if_neg (by simp; omega)]
  have s : slice (be16 c.ident ++ (c.len :: (c.contents ++ rest))) 0 2 = ok (be16 c.ident) := by
    rw [← List.nil_append (be16 c.ident ++ _)]; exact slice_mid rfl rfl
  rw [s]
  simp only [bind_ok]
  rw [rd16_be16']
  simp only [bind_ok]
  rw [idx_mid (by rfl)]
  simp only [bind_ok]
  by_cases h0 : c.len = 0
  · rw [if_neg (by simp [h0])]
    have : c.contents = [] := by
      rw [h0] at hn; exact List.length_eq_zero_iff.mp hn.symm
    obtain ⟨a, b, d⟩ := c
    simp only at this
    subst this
    rfl
  · rw [if_pos ⟨h0, by simp [hn]; omega⟩]
    have : slice (be16 c.ident ++ (c.len :: (c.contents ++ rest))) 3 (3 + c.len.toNat) = ok c.contents := by
      rw [show be16 c.ident ++ (c.len :: (c.contents ++ rest)) = (be16 c.ident ++ [c.len]) ++ (c.contents ++ rest) by simp]
      exact slice_mid rfl (by rw [hn])
    rw [this]
    rfl

theorem putContainers_eq : ∀ (cs : List Container) (pre z : Bytes) (off : Nat), (∀ p ∈ cs, ContainerOK p) → off = pre.length →
    (encContainers cs).length ≤ z.length →
    putContainers cs off (pre ++ z) = ok (pre ++ encContainers cs ++ z.drop (encContainers cs).length)
  | [], pre, z, off, _, _, _ => by simp [putContainers, encContainers]
  | p :: ps, pre, z, off, hp, ho, hz => by
    simp only [encContainers, List.map_cons, List.flatten_cons, List.length_append] at hz
    rw [putContainers, (container_writes (hp p (by simp))).subEnd ho rfl (by omega)]
    simp only [bind_ok]
    rw [putContainers_eq ps _ _ _ (fun x hx => hp x (by simp [hx])) (by rw [container_marshalLen]; simp; omega)
      (by simp only [encContainers, List.length_drop]; omega)]
    simp [encContainers, List.drop_drop, Nat.add_comm]

theorem getContainers_eq : ∀ (cs : List Container) (pre : Bytes) (off fuel : Nat), (∀ p ∈ cs, ContainerOK p) →
    off = pre.length → (encContainers cs).length < fuel →
    getContainers (pre ++ encContainers cs) fuel off = ok cs
  | _, _, _, 0, _, _, h => by omega
  | [], pre, off, fuel + 1, _, ho, _ => by simp [getContainers, encContainers, ho]
  | c :: cs, pre, off, fuel + 1, hc, ho, hf => by
    have e : encContainers (c :: cs) = encContainer c ++ encContainers cs := by simp [encContainers]
    have l0 : 0 < (encContainer c).length := by simp [encContainer]; omega
    rw [e] at hf ⊢
    simp only [List.length_append] at hf
    rw [getContainers, if_neg (by simp; omega), sliceFrom_of_le (by simp; omega)]
    subst ho
    simp only [bind_ok, List.drop_left]
    rw [parseContainer_eq (hc c (by simp))]
    simp only [bind_ok]
    have ih := getContainers_eq cs (pre ++ encContainer c) (pre.length + c.marshalLen) fuel (fun x hx => hc x (by simp [hx]))
      (by simp [container_marshalLen]) (by omega)
    rw [List.append_assoc] at ih
    rw [ih]
    rfl

theorem sum_containers (cs : List Container) : (cs.map Container.marshalLen).sum = (encContainers cs).length := by
  induction cs with
  | nil => rfl
  | cons c cs ih =>
    simp only [encContainers, List.map_cons, List.sum_cons, List.flatten_cons, List.length_append] at ih ⊢
    rw [ih, container_marshalLen]

theorem pco_octet : ∀ p : UInt8, p < 8 → (p &&& 7) ||| 0x80 = UInt8.ofNat (128 + p.toNat) ∧
    (UInt8.ofNat (128 + p.toNat) >>> 7) &&& 1 = 1 ∧ UInt8.ofNat (128 + p.toNat) &&& 7 = p :=
  forall_byte (p := fun p => p < 8 → (p &&& 7) ||| 0x80 = UInt8.ofNat (128 + p.toNat) ∧
    (UInt8.ofNat (128 + p.toNat) >>> 7) &&& 1 = 1 ∧ UInt8.ofNat (128 + p.toNat) &&& 7 = p) (by decide +kernel)

theorem pco_marshal {proto : UInt8} (hp : proto < 8) {opts : List Container} (ho : ∀ c ∈ opts, ContainerOK c) :
    (newPCOFields proto opts).marshal = ok (encPCO proto opts) := by
  have hl : (newPCOFields proto opts).marshalLen = 1 + (encContainers opts).length := by
    simp [newPCOFields, PCO.marshalLen, sum_containers]
  rw [PCO.marshal, hl, Nat.add_comm, List.replicate_succ, PCO.marshalTo, setAt_of_lt (by simp)]
  simp only [bind_ok, List.set_cons_zero, newPCOFields]
  rw [(pco_octet proto hp).1]
  have := putContainers_eq opts [UInt8.ofNat (128 + proto.toNat)] (List.replicate (encContainers opts).length 0) 1 ho rfl (by simp)
  simp only [List.cons_append, List.nil_append] at this
  rw [this]
  simp [encPCO]

theorem pco_parse {proto : UInt8} (hp : proto < 8) {opts : List Container} (ho : ∀ c ∈ opts, ContainerOK c) :
    parsePCO (encPCO proto opts) = ok ⟨1, proto, opts⟩ := by
  obtain ⟨-, h2, h3⟩ := pco_octet proto hp
  rw [parsePCO, if_neg (by simp [encPCO])]
  have : idx (encPCO proto opts) 0 = ok (UInt8.ofNat (128 + proto.toNat)) := rfl
  rw [this]
  simp only [bind_ok]
  have := getContainers_eq opts [UInt8.ofNat (128 + proto.toNat)] 1 ((encPCO proto opts).length + 1) ho rfl
    (by simp [encPCO]; omega)
  rw [← encPCO] at this
  rw [this, bind_ok, h2, h3]

/-- C47: every configuration protocol and every list of containers with contents below 256 octets.  The constructor returns
the 3GPP encoding, the element survives the wire, and the accessor returns the protocol and the containers, with the
extension bit set. -/
theorem C47_pco {proto : UInt8} (hp : proto < 8) (opts : List (UInt16 × Bytes)) (ho : ∀ c ∈ opts, c.2.length < 256)
    (hl : (encPCO proto (opts.map (fun c => newContainer c.1 c.2))).length < 65536) (hg : g 78 = false) (n : UInt8) :
    ∃ i, newPCO proto (opts.map (fun c => newContainer c.1 c.2)) = ok (some i) ∧
      (i.withInstance n).payload = encPCO proto (opts.map (fun c => newContainer c.1 c.2)) ∧ Carried g (i.withInstance n) ∧
      (i.withInstance n).pco g = ok ⟨1, proto, opts.map (fun c => newContainer c.1 c.2)⟩ := by
  have hok : ∀ c ∈ opts.map (fun c => newContainer c.1 c.2), ContainerOK c := by
    intro c hc
    obtain ⟨x, hx, rfl⟩ := List.mem_map.mp hc
    exact newContainer_ok _ (ho x hx)
  refine ⟨newIE 78 0 (encPCO proto (opts.map (fun c => newContainer c.1 c.2))), ?_, ?_, ?_, ?_⟩
  · rw [newPCO, pco_marshal hp hok]; rfl
  · rw [withInstance_new]; rfl
  · rw [withInstance_new]; exact carried_new g hl hg
  · rw [withInstance_new, IE.pco, if_pos (by simp), payload_new, if_neg (by simp [encPCO]), pco_parse hp hok]

/-- C47, what the code gets wrong: a container whose length octet runs past the end is not refused; its contents are dropped
and the octets read as further containers -/
theorem C47_truncated_accepted :
    parsePCO [0x80, 0x80, 0x21, 9, 0x00, 0x0d, 0x00] = ok ⟨1, 0, [⟨0x8021, 9, []⟩, ⟨0x000d, 0, []⟩]⟩ := by decide

example : newPCO 0 [newContainer 0x8021 [1, 2], newContainer 0x000d []] =
    ok (some (newIE 78 0 [0x80, 0x80, 0x21, 2, 1, 2, 0, 0x0d, 0])) := by decide

/-! ### PPP, PAP, CHAP, IPCP -/

/-- C47: PPP packets with payload -/
theorem C47_ppp (code ident : UInt8) {payload : Bytes} (h0 : 0 < payload.length) (h : payload.length < 65532) :
    (newPPP code ident payload).marshal = ok (encPPP code ident payload) ∧
    ∀ rest, parsePPP (encPPP code ident payload ++ rest) = ok (newPPP code ident payload) := by
  obtain ⟨p, q, hpq⟩ : ∃ p q, be16 (UInt16.ofNat (4 + payload.length)) = [p, q] := ⟨_, _, rfl⟩
  constructor
  · rw [PPP.marshal]
    simp only [newPPP]
    have hr : List.replicate (4 + payload.length) (0 : UInt8) = 0 :: 0 :: 0 :: 0 :: List.replicate payload.length 0 := by
      rw [Nat.add_comm]; rfl
    rw [PPP.marshalTo, if_neg (by simp; omega), hr]
    rw [setAt_of_lt (by simp)]
    simp only [bind_ok, List.set_cons_zero]
    rw [setAt_of_lt (by simp)]
    simp only [bind_ok, List.set_cons_zero, List.set_cons_succ]
    rw [show code :: ident :: 0 :: 0 :: List.replicate payload.length (0 : UInt8) =
      [code, ident] ++ (0 :: 0 :: List.replicate payload.length 0) from rfl,
      copyAt_append (by rfl) (by rfl) (by simp)]
    simp only [bind_ok, length_be16, List.drop_succ_cons, List.drop_zero]
    rw [copyFrom_append (by rfl) (by simp)]
    simp [encPPP]
  · intro rest
    have hn : (UInt16.ofNat (4 + payload.length)).toNat = 4 + payload.length := toNat_ofNat16 (by omega)
    have e : encPPP code ident payload ++ rest =
        [code, ident] ++ (be16 (UInt16.ofNat (4 + payload.length)) ++ (payload ++ rest)) := by simp [encPPP]
    rw [e, parsePPP, if_neg (by simp; omega)]
    have i0 : ∀ r, idx ([code, ident] ++ r) 0 = ok code := fun _ => rfl
    have i1 : ∀ r, idx ([code, ident] ++ r) 1 = ok ident := fun _ => rfl
    rw [i0, i1]
    simp only [bind_ok]
    rw [slice_mid (by rfl) (by rfl)]
    simp only [bind_ok]
    rw [rd16_be16']
    simp only [bind_ok, hn]
    rw [if_neg (by simp; omega)]
    have := slice_mid (pre := [code, ident] ++ be16 (UInt16.ofNat (4 + payload.length))) (mid := payload) (rest := rest)
      (lo := 4) (hi := 4 + payload.length) (by simp) rfl
    rw [List.append_assoc] at this
    rw [this]
    rfl

example : (newPPP 1 7 [0xaa]).marshal = ok [1, 7, 0, 5, 0xaa] ∧ parsePPP [1, 7, 0, 5, 0xaa, 9, 9] = ok (newPPP 1 7 [0xaa]) := by decide

/-- C47, what the code gets wrong: a PPP packet without data cannot be serialised or parsed -/
theorem C47_ppp_empty (code ident : UInt8) :
    (newPPP code ident []).marshal = err .eof ∧ parsePPP (encPPP code ident []) = err .tooShortParse := ⟨rfl, rfl⟩

/-- C47: PAP -/
theorem C47_pap {ident pw : Bytes} (h1 : ident.length < 256) (h2 : pw.length < 256) :
    (newPAP ident pw).marshal = ok (encPAP ident pw) ∧
    ∀ rest, parsePAP (encPAP ident pw ++ rest) = ok (newPAP ident pw) := by
  have n1 := toNat_ofNat8 h1
  have n2 := toNat_ofNat8 h2
  constructor
  · rw [PAP.marshal]
    simp only [newPAP]
    have hr : List.replicate (2 + ident.length + pw.length) (0 : UInt8) =
        0 :: List.replicate (ident.length + (pw.length + 1)) 0 := by
      rw [← List.replicate_succ]; congr 1; omega
    rw [PAP.marshalTo, if_neg (by simp; omega), hr]
    rw [setAt_of_lt (by simp)]
    simp only [bind_ok, List.set_cons_zero, n1, n2]
    rw [if_neg (by simp; omega)]
    generalize ha : UInt8.ofNat ident.length = a
    rw [show a :: List.replicate (ident.length + (pw.length + 1)) (0 : UInt8) =
      [a] ++ List.replicate (ident.length + (pw.length + 1)) 0 from rfl, copyAt_append (by rfl) (by rfl) (by simp)]
    simp only [bind_ok, List.drop_replicate, Nat.add_sub_cancel_left]
    rw [setAt_append (by simp; omega) (by simp)]
    simp only [bind_ok]
    rw [if_neg (by simp; omega), copyAt_append (by simp; omega) (by rfl) (by simp)]
    simp [encPAP, ha]
  · intro rest
    have e : encPAP ident pw ++ rest =
        [UInt8.ofNat ident.length] ++ (ident ++ (UInt8.ofNat pw.length :: (pw ++ rest))) := by simp [encPAP]
    rw [e, parsePAP, if_neg (by simp; omega)]
    have i0 : ∀ r, idx ([UInt8.ofNat ident.length] ++ r) 0 = ok (UInt8.ofNat ident.length) := fun _ => rfl
    rw [i0]
    simp only [bind_ok, n1]
    rw [if_neg (by simp; omega), slice_mid (by rfl) (by rfl)]
    simp only [bind_ok]
    rw [← List.append_assoc, idx_mid (by simp; omega)]
    simp only [bind_ok, n2]
    rw [if_neg (by simp; omega), show [UInt8.ofNat ident.length] ++ ident ++ UInt8.ofNat pw.length :: (pw ++ rest) =
      ([UInt8.ofNat ident.length] ++ ident ++ [UInt8.ofNat pw.length]) ++ (pw ++ rest) by simp,
      slice_mid (by simp; omega) rfl]
    rfl

/-- C47: CHAP, unless value and name are both empty -/
theorem C47_chap {value name : Bytes} (h1 : value.length < 256) (h0 : 0 < value.length + name.length) :
    (newCHAP value name).marshal = ok (encCHAP value name) ∧ parseCHAP (encCHAP value name) = ok (newCHAP value name) := by
  have n1 := toNat_ofNat8 h1
  constructor
  · rw [CHAP.marshal]
    simp only [newCHAP]
    rw [CHAP.marshalTo, if_neg (by simp; omega), show 1 + value.length + name.length = (value.length + name.length) + 1 by omega]
    simp only [List.replicate_succ]
    rw [setAt_of_lt (by simp)]
    simp only [bind_ok, List.set_cons_zero, n1]
    rw [if_neg (by simp; omega)]
    generalize hv : UInt8.ofNat value.length = a
    rw [show a :: List.replicate (value.length + name.length) (0 : UInt8) =
      [a] ++ List.replicate (value.length + name.length) 0 from rfl, copyAt_append (by rfl) (by rfl) (by simp)]
    simp only [bind_ok, List.drop_replicate, Nat.add_sub_cancel_left]
    rw [copyFrom_append (by simp; omega) (by simp)]
    simp [encCHAP, hv]
  · have e : encCHAP value name = [UInt8.ofNat value.length] ++ (value ++ name) := by simp [encCHAP]
    rw [e, parseCHAP, if_neg (by simp; omega)]
    have i0 : ∀ r, idx ([UInt8.ofNat value.length] ++ r) 0 = ok (UInt8.ofNat value.length) := fun _ => rfl
    rw [i0]
    simp only [bind_ok, n1]
    rw [if_neg (by simp; omega), slice_mid (by rfl) (by rfl)]
    simp only [bind_ok]
    rw [sliceFrom_of_le (by simp; omega)]
    simp only [bind_ok]
    rw [show [UInt8.ofNat value.length] ++ (value ++ name) = ([UInt8.ofNat value.length] ++ value) ++ name by simp,
      List.drop_left' (by simp; omega)]
    rfl

example : (newCHAP [1, 2] [3]).marshal = ok [2, 1, 2, 3] ∧ parseCHAP [2, 1, 2, 3] = ok (newCHAP [1, 2] [3]) := by decide

theorem ipcp_writes {o : IPCP} (h0 : 0 < o.payload.length) (h : o.len = UInt8.ofNat (2 + o.payload.length)) :
    Writes o.marshalTo (encIPCP o.typ o.payload) := by
  intro z hz
  simp only [encIPCP, List.length_append, List.length_cons, List.length_nil] at hz
  match z, hz with
  | x :: y :: z, hz =>
    simp only [List.length_cons] at hz
    rw [IPCP.marshalTo, if_neg (by simp; omega), setAt_of_lt (by simp)]
    simp only [bind_ok, List.set_cons_zero]
    rw [setAt_of_lt (by simp)]
    simp only [bind_ok, List.set_cons_zero, List.set_cons_succ]
    rw [show o.typ :: o.len :: z = [o.typ, o.len] ++ z from rfl, copyFrom_append (by rfl) (by omega)]
    simp [encIPCP, h]
  | [], hz => simp at hz
  | [_], hz => simp at hz; omega

/-- C47: IPCP options with data -/
theorem C47_ipcp (t : UInt8) {payload : Bytes} (h0 : 0 < payload.length) (h : payload.length < 254) :
    (newIPCP t payload).marshal = ok (encIPCP t payload) ∧
    ∀ rest, parseIPCP (encIPCP t payload ++ rest) = ok (newIPCP t payload) := by
  have n1 : (UInt8.ofNat (2 + payload.length)).toNat = 2 + payload.length := toNat_ofNat8 (by omega)
  constructor
  · have w := ipcp_writes (o := newIPCP t payload) h0 rfl
    exact w.marshal (by simp [IPCP.marshalLen, newIPCP, encIPCP]; omega)
  · intro rest
    have e : encIPCP t payload ++ rest = [t, UInt8.ofNat (2 + payload.length)] ++ (payload ++ rest) := by simp [encIPCP]
    rw [e, parseIPCP, if_neg (by simp; omega)]
    have i0 : ∀ a r, idx ([t, a] ++ r) 0 = ok t := fun _ _ => rfl
    have i1 : ∀ a r, idx ([t, a] ++ r) 1 = ok a := fun _ _ => rfl
    rw [i0, i1]
    simp only [bind_ok, n1]
    rw [if_neg (by simp; omega), slice_mid (by rfl) (by rfl)]
    rfl

example : (newIPCP 3 [8, 8]).marshal = ok [3, 4, 8, 8] ∧ parseIPCP [3, 4, 8, 8, 1] = ok (newIPCP 3 [8, 8]) := by decide

/-- C47: the IPCP address options carry the four octets of an IPv4 address -/
theorem C47_ipcp_addr (t : UInt8) {ip v : Bytes} (h : to4 ip = some v) : newIPCPAddr t ip = ⟨t, 6, v⟩ := by
  obtain ⟨p, q, r, s, rfl⟩ := to4_some h
  rw [newIPCPAddr, h]; rfl

theorem putIPCPs_eq : ∀ (os : List IPCP) (b : Bytes),
    (∀ o ∈ os, 0 < o.payload.length ∧ o.len = UInt8.ofNat (2 + o.payload.length)) →
    putIPCPs os b = ok (b ++ (os.map (fun o => encIPCP o.typ o.payload)).flatten)
  | [], b, _ => by simp [putIPCPs]
  | o :: os, b, h => by
    obtain ⟨h1, h2⟩ := h o (by simp)
    have hl : o.marshalLen = (encIPCP o.typ o.payload).length := by simp [IPCP.marshalLen, encIPCP]; omega
    rw [putIPCPs, (ipcp_writes h1 h2).sub rfl (by rw [hl]) (by simp [hl])]
    simp only [bind_ok]
    rw [putIPCPs_eq os _ (fun x hx => h x (by simp [hx]))]
    simp [hl]

/-- C47: a PPP packet built from PAP, CHAP or IPCP data carries exactly their encoding -/
theorem C47_ppp_contents (code ident : UInt8) (peer pw value name : Bytes) (opts : List (UInt8 × Bytes))
    (h1 : peer.length < 256) (h2 : pw.length < 256) (h3 : value.length < 256) (h4 : 0 < value.length + name.length)
    (h5 : ∀ o ∈ opts, 0 < o.2.length ∧ o.2.length < 254) :
    newPPPWithPAP code ident peer pw = ok (some (newPPP code ident (encPAP peer pw))) ∧
    newPPPWithCHAP code ident value name = ok (some (newPPP code ident (encCHAP value name))) ∧
    newPPPWithIPCP code ident (opts.map (fun o => newIPCP o.1 o.2)) =
      ok (some (newPPP code ident (opts.map (fun o => encIPCP o.1 o.2)).flatten)) := by
  refine ⟨?_, ?_, ?_⟩
  · rw [newPPPWithPAP, (C47_pap h1 h2).1]; rfl
  · rw [newPPPWithCHAP, (C47_chap h3 h4).1]; rfl
  · rw [newPPPWithIPCP, putIPCPs_eq]
    · simp [pppOf, List.map_map, Function.comp_def, newIPCP]
    · intro o ho
      obtain ⟨x, hx, rfl⟩ := List.mem_map.mp ho
      exact ⟨(h5 x hx).1, rfl⟩

/-- C47, what the code gets wrong: CHAP without value and name, and IPCP options without data, cannot be serialised -/
theorem C47_empty_fails (t : UInt8) : (newCHAP [] []).marshal = err .eof ∧ (newIPCP t []).marshal = err .eof ∧
    parseIPCP (encIPCP t []) = err .tooShortParse := ⟨rfl, rfl, rfl⟩

example : newPPPWithIPCP 1 0 [newIPCPAddr 3 [1, 1, 1, 1], newIPCPAddr 129 [2, 2, 2, 2]] =
    ok (some ⟨1, 0, 16, [3, 6, 1, 1, 1, 1, 129, 6, 2, 2, 2, 2]⟩) := by decide
example : parsePAP [3, 0x66, 0x6f, 0x6f, 3, 0x62, 0x61, 0x72] = ok ⟨3, [0x66, 0x6f, 0x6f], 3, [0x62, 0x61, 0x72]⟩ := by decide

/-! ### C48 -/

theorem parseContainer_returns (b : Bytes) : Returns (parseContainer b) := by
  unfold parseContainer; ret

theorem getContainers_returns (b : Bytes) : ∀ (fuel off : Nat), b.length < fuel + off → 0 < fuel →
    Returns (getContainers b fuel off)
  | 0, off, _, h => by omega
  | fuel + 1, off, h, _ => by
    rw [getContainers]
    split
    · simp
    · rw [sliceFrom_of_le (by omega)]
      simp only [bind_ok]
      refine returns_bind (parseContainer_returns _) (fun c hc => ?_)
      have : 3 ≤ c.marshalLen := by simp [Container.marshalLen]
      by_cases hf : fuel = 0
      · omega
      · exact returns_bind (getContainers_returns b fuel _ (by omega) (by omega)) (fun _ _ => by simp)

theorem parsePCO_returns (b : Bytes) : Returns (parsePCO b) := by
  unfold parsePCO
  ret
  exact returns_bind (getContainers_returns b _ _ (by omega) (by omega)) (fun _ _ => by simp)

/-- C48 for protocol configuration options: the accessor and the CHAP decoder always return; the PPP, PAP and IPCP decoders
panic exactly on the inputs named. -/
theorem C48_pco_partial (i : IE) (b : Bytes) : Returns (i.pco g) ∧ Returns (parseCHAP b) ∧
    (Returns (parsePPP b) ↔ ¬ (5 ≤ b.length ∧ b[2]? = some 0 ∧ ∃ x, b[3]? = some x ∧ x < 4)) ∧
    (Returns (parsePAP b) ↔ ¬ (2 ≤ b.length ∧ ∃ n, b[0]? = some n ∧ b.length = 1 + n.toNat)) ∧
    (Returns (parseIPCP b) ↔ ¬ (3 ≤ b.length ∧ ∃ n, b[1]? = some n ∧ n < 2)) := by
  refine ⟨?_, ?_, ?_, ?_, ?_⟩
  · unfold IE.pco
    split
    · split
      · simp
      · exact parsePCO_returns _
    · split
      · refine returns_bind (bearerContext_returns g i) (fun ies _ => ?_)
        split
        · split
          · simp
          · exact parsePCO_returns _
        · simp
      · simp
  · unfold parseCHAP; ret
  · rw [parsePPP]
    split
    · rename_i h; simp; omega
    · rename_i h
      match b, h with
      | x0 :: x1 :: x2 :: x3 :: x4 :: r, h =>
        have hx2 := x2.toNat_lt
        have hx3 := x3.toNat_lt
        have hs : slice (x0 :: x1 :: x2 :: x3 :: x4 :: r) 2 4 = ok [x2, x3] := by simp [slice]
        have i0 : idx (x0 :: x1 :: x2 :: x3 :: x4 :: r) 0 = ok x0 := rfl
        have i1 : idx (x0 :: x1 :: x2 :: x3 :: x4 :: r) 1 = ok x1 := rfl
        have hr : rd16 [x2, x3] = ok (UInt16.ofNat (x2.toNat * 256 + x3.toNat)) := rfl
        rw [i0, i1, hs]
        simp only [bind_ok, hr]
        have hn : (UInt16.ofNat (x2.toNat * 256 + x3.toNat)).toNat = x2.toNat * 256 + x3.toNat := toNat_ofNat16 (by omega)
        rw [hn]
        have e2 : x2 = 0 ↔ x2.toNat = 0 := by rw [← UInt8.toNat_inj]; rfl
        have e3 : x3 < 4 ↔ x3.toNat < 4 := Iff.rfl
        by_cases hl : (x0 :: x1 :: x2 :: x3 :: x4 :: r).length < x2.toNat * 256 + x3.toNat
        · rw [if_pos hl]
          simp only [List.length_cons] at hl
          simp [e2, e3]; omega
        · rw [if_neg hl, slice]
          by_cases h4 : 4 ≤ x2.toNat * 256 + x3.toNat
          · rw [if_pos ⟨h4, by omega⟩]
            simp [e2, e3]; omega
          · rw [if_neg (by omega)]
            simp [e2, e3]; omega
      | [], h => simp at h
      | [_], h => simp at h
      | [_, _], h => simp at h
      | [_, _, _], h => simp at h
      | [_, _, _, _], h => simp at h
  · rw [parsePAP]
    split
    · rename_i h; simp; omega
    · rename_i h
      match b, h with
      | x0 :: r, h =>
        rw [idx_zero]
        simp only [bind_ok]
        simp only [List.getElem?_cons_zero, Option.some.injEq, exists_eq_left']
        by_cases h1 : (x0 :: r).length < 1 + x0.toNat
        · rw [if_pos h1]; simp only [returns_err, true_iff]; omega
        · rw [if_neg h1, slice_of_le (by omega) (by omega)]
          simp only [bind_ok]
          by_cases h2 : (x0 :: r).length = 1 + x0.toNat
          · have : idx (x0 :: r) (1 + x0.toNat) = .panic := by rw [idx, List.getElem?_eq_none (by omega)]
            rw [this]
            simp only [bind_panic, not_returns_panic, false_iff, Decidable.not_not]
            omega
          · have : Returns (idx (x0 :: r) (1 + x0.toNat)) := returns_idx (by omega)
            constructor
            · intro _; omega
            · intro _
              ret
      | [], h => simp at h
  · rw [parseIPCP]
    split
    · rename_i h; simp; omega
    · rename_i h
      match b, h with
      | x0 :: x1 :: r, h =>
        have i0 : idx (x0 :: x1 :: r) 0 = ok x0 := rfl
        have i1 : idx (x0 :: x1 :: r) 1 = ok x1 := rfl
        rw [i0, i1]
        simp only [bind_ok]
        simp only [List.getElem?_cons_zero, List.getElem?_cons_succ, Option.some.injEq, exists_eq_left']
        have e1 : x1 < 2 ↔ x1.toNat < 2 := Iff.rfl
        simp only [e1]
        by_cases h1 : (x0 :: x1 :: r).length < x1.toNat
        · rw [if_pos h1]; simp only [returns_err, true_iff]; omega
        · rw [if_neg h1, slice]
          by_cases h2 : 2 ≤ x1.toNat
          · rw [if_pos ⟨h2, by omega⟩]
            simp only [bind_ok, returns_ok, true_iff]; omega
          · rw [if_neg (by omega)]
            simp only [bind_panic, not_returns_panic, false_iff, Decidable.not_not]; omega
      | [], h => simp at h
      | [_], h => simp at h

example : parsePPP [1, 1, 0, 3, 9] = .panic ∧ parsePAP [1, 9] = .panic ∧ parseIPCP [3, 1, 9] = .panic := by decide

end Verif.V2

/-! ### cases that meet the hypotheses -/

namespace Verif.V2
open Res NetIP
example := C47_pco (g := defaultGrouped) (proto := 0) (by decide) [(0x8021, [1, 2]), (0x000d, [])] (by decide) (by decide) (by decide) 1
example := C47_ppp 1 7 (payload := [0xaa]) (by decide) (by decide)
example := C47_pap (ident := [0x66, 0x6f, 0x6f]) (pw := [0x62, 0x61, 0x72]) (by decide) (by decide)
example := C47_chap (value := [1, 2]) (name := [3]) (by decide) (by decide)
example := C47_ipcp 3 (payload := [8, 8]) (by decide) (by decide)
example := C47_ipcp_addr 129 (ip := [2, 2, 2, 2]) rfl
example := C47_ppp_contents 1 7 [0x66] [0x62] [1, 2] [3] [(3, [1, 1, 1, 1]), (129, [2, 2, 2, 2])] (by decide) (by decide) (by decide) (by decide)
  (by decide)
end Verif.V2
