import Verif.Model.Record

/-! # Specification of the nesting of record responses -/

namespace Egts

/-- One level of `SrResponse.Decode` (`egts_sr_response.go:17-38`), with `f` doing the decoding of
the record-response subrecords met inside it. -/
def respF (env : Env) (f : Bytes → Except Err SrResponse) (content : Bytes) : Except Err SrResponse := do
  let (s, r) ← SrResponse.decodeHead content
  let _ ← sdsLoop (fun b => rdsLoop env f b.length [] b) r.length [] r
  pure s

/-- `depth` levels of `SrResponse.Decode`, with `f` for whatever lies deeper. -/
def unfoldResp (env : Env) (f : Bytes → Except Err SrResponse) : Nat → Bytes → Except Err SrResponse
  | 0 => f
  | d + 1 => respF env (unfoldResp env f d)

/-- The three decoders that call each other, `SrResponse.Decode` (`egts_sr_response.go:17-38`), `RecordDataSet.Decode` (`record_data.go:22-93`)
and `ServiceDataSet.Decode` (`service_data_records.go:38-120`), do what is written in the source, with no bound on anything: a loop goes on
until nothing is left to read, and a call inside another is just a call. -/
structure AsWritten (env : Env) (resp : Bytes → Except Err SrResponse) (rds : List RecordData → Bytes → Except Err (List RecordData))
    (sds : List ServiceDataRecord → Bytes → Except Err (List ServiceDataRecord)) : Prop where
  onResp : ∀ b, resp b = do
    let (s, r) ← SrResponse.decodeHead b
    let _ ← sds [] r
    pure s
  onRds : ∀ acc b, rds acc b = if b = [] then .ok acc else do
    let (rd, r) ← rdStep env resp b
    rds (acc ++ rd.toList) r
  onSds : ∀ acc b, sds acc b = if b = [] then .ok acc else do
    let (sdr, r) ← sdrStep (rds []) b
    sds (acc ++ [sdr]) r

end Egts
