import Verif.Model.Request

/-! # Vocabulary for stating properties of request objects -/

namespace CoreHttp

/-- The first headersLen bytes of the request buffer. -/
def headerBlock (m : Mem) (h : ReqHeaders) : Bytes :=
  match h.pBuffer with
  | none => []
  | some b => (m b).take h.headersLen

/-- The request object has a buffer (block `b`) of at least the claimed length. -/
def HasBuf (m : Mem) (h : ReqHeaders) (b : Nat) : Prop := h.pBuffer = some b ∧ h.bufferLen ≤ (m b).length

/-- Only the first `n` bytes of block `b` may differ between two memories. -/
def FrameBuf (m m' : Mem) (b n : Nat) : Prop :=
  (∀ i, i ≠ b → m' i = m i) ∧ (m' b).length = (m b).length ∧ (m' b).drop n = (m b).drop n

/-- The documented parameter conditions of HTTPClient_InitializeRequestHeaders: a request object with a buffer; a request description with a
non-empty method and a non-empty host. -/
structure InitParamsOk (rh : Option ReqHeaders) (info : Option ReqInfo) : Prop where
  request : ∃ h b, rh = some h ∧ h.pBuffer = some b
  info : ∃ i me ho, info = some i ∧ i.pMethod = some me ∧ me ≠ [] ∧ i.pHost = some ho ∧ ho ≠ []

/-- The documented parameter conditions of HTTPClient_AddHeader: a request object with a buffer and no more headers than it holds; a non-empty field and
a non-empty value. -/
structure AddParamsOk (rh : Option ReqHeaders) (field value : Option Bytes) : Prop where
  request : ∃ h b, rh = some h ∧ h.pBuffer = some b ∧ h.headersLen ≤ h.bufferLen
  field : ∃ f, field = some f ∧ f ≠ []
  value : ∃ v, value = some v ∧ v ≠ []

/-- The documented parameter conditions of HTTPClient_AddRangeHeader on the request object. -/
def RangeObjectOk (rh : Option ReqHeaders) : Prop := ∃ h b, rh = some h ∧ h.pBuffer = some b ∧ h.headersLen ≤ h.bufferLen

end CoreHttp
