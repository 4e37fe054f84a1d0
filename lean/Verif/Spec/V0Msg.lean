import Verif.Model.V0Msg
/-
Wire format of the GTPv0 header (3GPP TS 09.60 6), written without using the functions of the model.
-/
namespace Verif.V0.Spec

/-- flags, type, length of the payload, sequence number, flow label, SNDCP N-PDU number, three spare octets with all
bits set, TID, payload -/
def encH (h : Header) : Bytes :=
  [h.flags, h.typ] ++ be16 h.length ++ be16 h.seq ++ be16 h.label ++ [h.sndcp, 0xff, 0xff, 0xff] ++ be64 h.tid ++ h.payload

end Verif.V0.Spec
