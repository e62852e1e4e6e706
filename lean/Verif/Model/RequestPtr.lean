import Verif.Model.Request

/-!
# Request building with pointers

`Model/Request.lean` passes the caller's strings by value. Here they are what C gets: a pointer and a length. The
string may lie anywhere, also inside the header buffer that is being written (as when a header of a response that
shares the buffer is used for the next request), and every byte is read at the moment the code reads it.
`Props/Aliasing.lean` relates the two.
-/

namespace CoreHttp

/-- A (pointer, length) pair. -/
inductive Src where
  /-- memory that is not in any modelled block: string constants, other memory of the caller -/
  | lit (s : Bytes)
  /-- `len` bytes at offset `off` of block `blk` -/
  | at (blk off len : Nat)
deriving DecidableEq, Repr

/-- The length argument. -/
def Src.len : Src → Nat
  | lit s => s.length
  | .at _ _ len => len

/-- `pSrc[ i ]`, read now. -/
def Src.read (m : Mem) : Src → Nat → Run UInt8
  | .lit s, i => match s[i]? with
    | some c => .ok c
    | none => .fault .oob
  | .at blk off _, i => match (m blk)[off + i]? with
    | some c => .ok c
    | none => .fault .oob

/-- httpHeaderStrncpy, core_http_client.c:1293-1338, the loop from index `i` with `rem = len - i` iterations left. `true` = the destination
pointer is returned, `false` = NULL. -/
def httpHeaderStrncpyP (b off : Nat) (src : Src) (isField : Bool) : (rem i : Nat) → (m : Mem) → Run (Bool × Mem)
  | 0, _, m => .ok (true, m)
  | rem + 1, i, m => do
    let c ← src.read m i
    if c = CR then .ok (false, m)
    else if c = LF then .ok (false, m)
    else if isField = true ∧ c = COLON then .ok (false, m)
    else do
      let blk ← memWrite (m b) (off + i) [c]
      httpHeaderStrncpyP b off src isField rem (i + 1) (m.set b blk)

/-- `memcpy( &pBuffer[ off ], pSrc, len )` into block `b`: undefined when the source overlaps the destination. -/
def memcpyP (m : Mem) (b off : Nat) : Src → Run Mem
  | .lit s => do
    let blk ← memWrite (m b) off s
    .ok (m.set b blk)
  | .at blk o len =>
    if blk = b ∧ o < off + len ∧ off < o + len then .fault .overlap
    else do
      let s ← memRead (m blk) o len
      let blk ← memWrite (m b) off s
      .ok (m.set b blk)

/-- addHeader, core_http_client.c:1342-1438. -/
def addHeaderP (cfg : Cfg) (m : Mem) (h : ReqHeaders) (pField pValue : Option Src) : Run ReqOut :=
  match h.pBuffer, pField, pValue with
  | none, _, _ => .fault (.assertFail 1359)
  | _, none, _ => .fault (.assertFail 1360)
  | _, _, none => .fault (.assertFail 1361)
  | some b, some field, some value => do
    cAssert 1362 (decide (field.len ≠ 0))
    cAssert 1363 (decide (value.len ≠ 0))
    let backtrack : Nat ←
      (if HEADER_END_INDICATOR.length ≤ h.headersLen then do
        let tail ← memRead (m b) (h.headersLen - HEADER_END_INDICATOR.length) HEADER_END_INDICATOR.length
        if tail = HEADER_END_INDICATOR then .ok (h.headersLen - LINE_SEPARATOR.length) else .ok h.headersLen
      else .ok h.headersLen)
    let toAddLen := szAdd cfg (szAdd cfg (szAdd cfg (szAdd cfg field.len FIELD_SEPARATOR.length) value.len)
      LINE_SEPARATOR.length) LINE_SEPARATOR.length
    if szAdd cfg backtrack toAddLen ≤ h.bufferLen then do
      let (okf, m) ← httpHeaderStrncpyP b backtrack field true field.len 0 m
      if okf = false then .ok ⟨.invalidCharacter, h, m⟩
      else do
        let m ← memcpyP m b (backtrack + field.len) (.lit FIELD_SEPARATOR)
        let (okv, m) ← httpHeaderStrncpyP b (backtrack + field.len + FIELD_SEPARATOR.length) value false value.len 0 m
        if okv = false then .ok ⟨.invalidCharacter, h, m⟩
        else do
          let m ← memcpyP m b (backtrack + field.len + FIELD_SEPARATOR.length + value.len) (.lit HEADER_END_INDICATOR)
          .ok ⟨.success, { h with headersLen := szAdd cfg backtrack toAddLen }, m⟩
    else .ok ⟨.insufficientMemory, h, m⟩

/-- `( pPath == NULL ) || ( pathLen == 0U )` ? HTTP_EMPTY_PATH : path, core_http_client.c:1545, 1562-1573. -/
def pathOrDefaultP (pPath : Option Src) : Src :=
  match pPath with
  | none => .lit EMPTY_PATH
  | some p => if p.len = 0 then .lit EMPTY_PATH else p

/-- writeRequestLine, core_http_client.c:1513-1585. -/
def writeRequestLineP (cfg : Cfg) (m : Mem) (h : ReqHeaders) (pMethod pPath : Option Src) : Run ReqOut :=
  match h.pBuffer, pMethod with
  | none, _ => .fault (.assertFail 1530)
  | _, none => .fault (.assertFail 1531)
  | some b, some method => do
    cAssert 1532 (decide (method.len ≠ 0))
    let path := pathOrDefaultP pPath
    let toAddLen := szAdd cfg (szAdd cfg (szAdd cfg (szAdd cfg (szAdd cfg method.len 1) 1)
      PROTOCOL_VERSION.length) LINE_SEPARATOR.length) path.len
    if szAdd cfg toAddLen h.headersLen > h.bufferLen then .ok ⟨.insufficientMemory, h, m⟩
    else do
      let m ← memcpyP m b 0 method
      let m ← memcpyP m b method.len (.lit [SPACE])
      let m ← memcpyP m b (method.len + 1) path
      let m ← memcpyP m b (method.len + 1 + path.len) (.lit [SPACE])
      let m ← memcpyP m b (method.len + 1 + path.len + 1) (.lit PROTOCOL_VERSION)
      let m ← memcpyP m b (method.len + 1 + path.len + 1 + PROTOCOL_VERSION.length) (.lit LINE_SEPARATOR)
      .ok ⟨.success, { h with headersLen := toAddLen }, m⟩

/-- HTTPRequestInfo_t, core_http_client.h:395-423, with pointers. -/
structure ReqInfoP where
  pMethod : Option Src
  pPath : Option Src
  pHost : Option Src
  reqFlags : UInt32
deriving DecidableEq, Repr

/-- HTTPClient_InitializeRequestHeaders, core_http_client.c:1589-1685. -/
def HTTPClient_InitializeRequestHeadersP (cfg : Cfg) (m : Mem) (pRequestHeaders : Option ReqHeaders)
    (pRequestInfo : Option ReqInfoP) : Run (Status × Option ReqHeaders × Mem) :=
  match pRequestHeaders with
  | none => .ok (.invalidParameter, none, m)
  | some h =>
    match h.pBuffer, pRequestInfo with
    | none, _ => .ok (.invalidParameter, some h, m)
    | _, none => .ok (.invalidParameter, some h, m)
    | some _, some info =>
      match info.pMethod, info.pHost with
      | none, _ => .ok (.invalidParameter, some h, m)
      | _, none => .ok (.invalidParameter, some h, m)
      | some method, some host =>
        if method.len = 0 then .ok (.invalidParameter, some h, m)
        else if host.len = 0 then .ok (.invalidParameter, some h, m)
        else do
          let r ← writeRequestLineP cfg m { h with headersLen := 0 } info.pMethod info.pPath
          let r ← (if r.status = .success ∧ REQUEST_NO_USER_AGENT_FLAG &&& info.reqFlags = 0 then
              addHeaderP cfg r.mem r.hdrs (some (.lit USER_AGENT_FIELD)) (some (.lit cfg.userAgent))
            else .ok r)
          let r ← (if r.status = .success then
              addHeaderP cfg r.mem r.hdrs (some (.lit HOST_FIELD)) info.pHost
            else .ok r)
          let r ← (if r.status = .success ∧ REQUEST_KEEP_ALIVE_FLAG &&& info.reqFlags ≠ 0 then
              addHeaderP cfg r.mem r.hdrs (some (.lit CONNECTION_FIELD)) (some (.lit KEEP_ALIVE_VALUE))
            else .ok r)
          .ok (r.status, some r.hdrs, r.mem)

/-- HTTPClient_AddHeader, core_http_client.c:1689-1745. -/
def HTTPClient_AddHeaderP (cfg : Cfg) (m : Mem) (pRequestHeaders : Option ReqHeaders)
    (pField pValue : Option Src) : Run (Status × Option ReqHeaders × Mem) :=
  match pRequestHeaders with
  | none => .ok (.invalidParameter, none, m)
  | some h =>
    match h.pBuffer, pField, pValue with
    | none, _, _ => .ok (.invalidParameter, some h, m)
    | _, none, _ => .ok (.invalidParameter, some h, m)
    | _, _, none => .ok (.invalidParameter, some h, m)
    | some _, some field, some value =>
      if field.len = 0 then .ok (.invalidParameter, some h, m)
      else if value.len = 0 then .ok (.invalidParameter, some h, m)
      else if h.headersLen > h.bufferLen then .ok (.invalidParameter, some h, m)
      else do
        let r ← addHeaderP cfg m h pField pValue
        .ok (r.status, some r.hdrs, r.mem)

end CoreHttp
