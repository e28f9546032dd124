import Verif.Model.Record

/-! # The buffers for record data that `Decode` sets aside

Only `make([]byte, sdr.RecordLength)` (`service_data_records.go:106`) is counted: every other buffer of the decoders of records has a
constant size or is a part of its input. The functions below follow the decoders of `Model/Record.lean` call by call and count, whether the
decoding succeeds or not. `seq` says how the counts of two calls of which one follows the other are put together: with `+`, all that is set
aside in the course of the decoding; with `max`, the most that is in use at a time, a buffer being in use until the call that was given it
returns. The bounds on loops and nesting are those of `Model/Record.lean`. -/

namespace Egts

/-- One iteration of the loop of `ServiceDataSet.Decode` (`service_data_records.go:46-117`): the buffer (line 106), and what
`RecordDataSet.Decode` of its content (line 111) sets aside meanwhile. -/
def sdrAlloc (rdsA : Bytes → Nat) (r : Bytes) : Nat :=
  match sdrHead r with
  | .error _ => 0
  | .ok (sdr, r) =>
    if r = [] then 0
    else match readerRead (zeros sdr.recordLength.toNat) r with
      | .error _ => sdr.recordLength.toNat
      | .ok (b, _) => sdr.recordLength.toNat + rdsA b

/-- The loop of `ServiceDataSet.Decode` (`service_data_records.go:45-118`), up to its end or the first error. -/
def sdsAlloc (seq : Nat → Nat → Nat) (rdsDec : Bytes → Except Err (List RecordData)) (rdsA : Bytes → Nat) : Nat → Bytes → Nat
  | 0, _ => 0
  | fuel + 1, r =>
    if r = [] then 0
    else match sdrStep rdsDec r with
      | .error _ => sdrAlloc rdsA r
      | .ok (_, r') => seq (sdrAlloc rdsA r) (sdsAlloc seq rdsDec rdsA fuel r')

/-- One iteration of the loop of `RecordDataSet.Decode` (`record_data.go:27-90`): only the record response (type 0, lines 48-49) decodes
records. -/
def subAlloc (respA : Bytes → Nat) (r : Bytes) : Nat :=
  match readByte r with
  | .error _ => 0
  | .ok (t, r) =>
    match bufferRead (zeros 2) r with
    | .error _ => 0
    | .ok (tmp, r) => if t = 0 then respA (r.take (le16 tmp).toNat) else 0

/-- The loop of `RecordDataSet.Decode` (`record_data.go:27-90`), up to its end or the first error. -/
def rdsAlloc (seq : Nat → Nat → Nat) (env : Env) (respDec : Bytes → Except Err SrResponse) (respA : Bytes → Nat) : Nat → Bytes → Nat
  | 0, _ => 0
  | fuel + 1, r =>
    if r = [] then 0
    else match rdStep env respDec r with
      | .error _ => subAlloc respA r
      | .ok (_, r') => seq (subAlloc respA r) (rdsAlloc seq env respDec respA fuel r')

/-- `SrResponse.Decode` (`egts_sr_response.go:17-38`). -/
def respAlloc (seq : Nat → Nat → Nat) (env : Env) : Nat → Bytes → Nat
  | 0, _ => 0
  | depth + 1, content =>
    match SrResponse.decodeHead content with
    | .error _ => 0
    | .ok (_, r) =>
      sdsAlloc seq (rdsDecodeD env depth) (fun b => rdsAlloc seq env (srRespDecode env depth) (respAlloc seq env depth) b.length b) r.length r

/-- `ServiceDataSet.Decode` (`service_data_records.go:38-120`). -/
def ServiceDataSet.alloc (seq : Nat → Nat → Nat) (env : Env) (b : Bytes) : Nat :=
  sdsAlloc seq (rdsDecodeD env (depthFor b.length))
    (fun x => rdsAlloc seq env (srRespDecode env (depthFor b.length)) (respAlloc seq env (depthFor b.length)) x.length x) b.length b

end Egts
