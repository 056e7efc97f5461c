import Verif.Props.Real
import Verif.Props.JweSym
/-
Generated by tools/mkvectors.py.  The literal inputs and outputs of /repo/tests, evaluated by the kernel on the
model with the standard algorithms.  These are tests, not proofs: they compare the model with what the
authors of the code recorded of it.  `tools/mkvectors.py --eval` has four more, too large for the kernel.
-/

namespace Verif.Vectors
open Verif

/-- The bytes of a base64url text without padding. -/
def b64val (t : Bytes) : Bytes := ((b64d t).toOption).getD []

def rfcKey : Bytes :=
  [3, 35, 53, 75, 43, 15, 165, 188, 131, 126, 6, 101, 119, 123, 166, 143, 90, 179, 40, 230, 240, 84, 201, 40, 169, 15, 132, 178, 210, 80, 46, 191, 211, 251, 90, 146, 210, 6, 71, 239, 150, 138, 180, 195, 119, 98, 61, 34, 61, 46, 33, 114, 5, 46, 79, 8, 192, 205, 154, 245, 103, 208, 128, 163]

def jwks : PyVal :=
  .dict [("keys", .list [.dict [("n", .bytes ([122, 107, 112, 85, 103, 69, 103, 88, 73, 67, 73, 53, 52, 98, 108, 102, 54, 105, 87, 105, 68, 50, 82, 98, 77, 68, 67, 79, 79, 49, 106, 86, 48, 86, 83, 102, 102, 49, 77, 70, 70, 110, 117, 106, 77, 52, 111, 116, 104, 102, 77, 115, 97, 100, 55, 72, 49, 107, 82, 111, 53, 48, 89, 77, 53, 83, 95, 88, 57, 84, 100, 118, 114, 112, 100, 79, 102, 112, 122, 53, 97, 66, 97, 75, 70, 104, 84, 54, 90, 105, 118, 48, 110, 104, 116, 99, 101, 107, 113, 49, 101, 82, 108, 56, 109, 106, 66, 108, 118, 71, 75, 67, 69, 53, 88, 71, 107, 45, 48, 76, 70, 83, 68, 119, 118, 113, 103, 107, 74, 111, 70, 89, 73, 110, 113, 55, 98, 117, 48, 97, 52, 74, 69, 122, 75, 115, 53, 65, 121, 74, 89, 55, 53, 89, 108, 71, 104, 56, 55, 57, 107, 49, 85, 117, 50, 83, 118, 51, 90, 90, 79, 117, 110, 102, 86, 49, 79, 49, 79, 114, 116, 97, 45, 78, 118, 83, 45, 97, 71, 95, 106, 78, 53, 99, 115, 116, 86, 98, 67, 71, 87, 69, 50, 48, 72, 48, 118, 70, 86, 114, 74, 75, 78, 120, 48, 90, 102, 45, 117, 45, 97, 65, 45, 115, 121, 77, 52, 117, 88, 55, 119, 100, 87, 103, 81, 45, 111, 119, 111, 69, 77, 72, 103, 101, 48, 71, 109, 71, 103, 122, 115, 111, 50, 108, 119, 79, 89, 102, 95, 52, 122, 110, 97, 110, 76, 119, 69, 117, 79, 51, 112, 53, 97, 97, 98, 69, 97, 70, 111, 75, 78, 82, 52, 75, 54, 71, 106, 81, 99, 106, 66, 99, 89, 109, 68, 69, 69, 52, 67, 116, 102, 82, 85, 57, 65, 69, 109, 104, 99, 68, 49, 107, 108, 101, 105, 84, 66, 57, 84, 106, 80, 87, 107, 103, 68, 109, 84, 57, 77, 88, 115, 71, 120, 66, 72, 102, 51, 65, 75, 84, 53, 119])), ("e", .bytes ([65, 81, 65, 66])), ("kty", .str "RSA"), ("kid", .str "rsa1"), ("use", .str "sig")], .dict [("k", .bytes ([89, 84, 69, 121, 90, 106, 66, 108, 77, 68, 103, 120, 77, 71, 73, 52, 89, 87, 85, 52, 89, 50, 74, 106, 90, 68, 70, 105, 89, 84, 70, 108, 90, 84, 66, 106, 89, 122, 108, 106, 78, 68, 85, 51, 89, 87, 77, 48, 90, 87, 78, 105, 78, 122, 104, 109, 78, 109, 70, 108, 89, 84, 78, 107, 78, 84, 89, 48, 78, 122, 77, 122, 89, 106, 69])), ("kty", .str "oct"), ("use", .str "sig")], .dict [("kty", .str "EC"), ("kid", .str "ec1"), ("use", .str "sig"), ("x", .str "q0WbWhflRbxyQZKFuQvh2nZvg98ak-twRoO5uo2L7Po"), ("y", .str "GOd2jL_6wa0cfnyA0SmEhok9fkYEnAHFKLLM79BZ8_E"), ("crv", .str "P-256")]])]

/-- `test_a_1_1a` -/
example : b64e ([123, 34, 116, 121, 112, 34, 58, 34, 74, 87, 84, 34, 44, 13, 10, 32, 34, 97, 108, 103, 34, 58, 34, 72, 83, 50, 53, 54, 34, 125]) = [101, 121, 74, 48, 101, 88, 65, 105, 79, 105, 74, 75, 86, 49, 81, 105, 76, 65, 48, 75, 73, 67, 74, 104, 98, 71, 99, 105, 79, 105, 74, 73, 85, 122, 73, 49, 78, 105, 74, 57] := by
  decide +kernel

/-- `test_a_1_1b` -/
example : b64e ([123, 34, 105, 115, 115, 34, 58, 34, 106, 111, 101, 34, 44, 13, 10, 32, 34, 101, 120, 112, 34, 58, 49, 51, 48, 48, 56, 49, 57, 51, 56, 48, 44, 13, 10, 32, 34, 104, 116, 116, 112, 58, 47, 47, 101, 120, 97, 109, 112, 108, 101, 46, 99, 111, 109, 47, 105, 115, 95, 114, 111, 111, 116, 34, 58, 116, 114, 117, 101, 125]) = [101, 121, 74, 112, 99, 51, 77, 105, 79, 105, 74, 113, 98, 50, 85, 105, 76, 65, 48, 75, 73, 67, 74, 108, 101, 72, 65, 105, 79, 106, 69, 122, 77, 68, 65, 52, 77, 84, 107, 122, 79, 68, 65, 115, 68, 81, 111, 103, 73, 109, 104, 48, 100, 72, 65, 54, 76, 121, 57, 108, 101, 71, 70, 116, 99, 71, 120, 108, 76, 109, 78, 118, 98, 83, 57, 112, 99, 49, 57, 121, 98, 50, 57, 48, 73, 106, 112, 48, 99, 110, 86, 108, 102, 81] := by
  decide +kernel

/-- `test_base64_long_base64` -/
example : (base64ToLongBytes [111, 109, 88, 106, 79, 81, 109, 72, 108, 55, 55, 84, 116, 112, 119, 77, 88, 76, 57, 87, 80, 99, 100, 45, 88, 99, 103, 49, 98, 104, 56, 67, 111, 76, 71, 79, 121, 88, 49, 85, 103, 95, 67, 76, 116, 90, 74, 120, 95, 83, 118, 83, 111, 48, 98, 106, 53, 98, 69, 105, 86, 98, 56, 101, 67, 97, 53, 109, 88, 117, 99, 54, 115, 68, 103, 57, 95, 82, 82, 112, 67, 118, 75, 72, 72, 120, 90, 71, 54, 102, 57, 113, 104, 53, 114, 51, 90, 78, 89, 45, 121, 114, 53, 104, 75, 81, 113, 101, 77, 97, 102, 87, 97, 52, 98, 54, 85, 113, 111, 117, 76, 83, 83, 119, 75, 115, 78, 101, 53, 70, 87, 68, 51, 50, 55, 66, 111, 121, 97, 69, 115, 77, 121, 67, 82, 104, 101, 81, 103, 52, 119, 88, 56, 54, 71, 95, 56, 122, 113, 121, 110, 117, 118, 98, 84, 54, 75, 122, 81, 98, 81, 116, 112, 52, 105, 113, 81, 118, 77, 87, 71, 115, 119, 111, 118, 109, 102, 108, 115, 107, 55, 122, 111, 90, 85, 69, 83, 65, 70, 117, 54, 76, 53, 120, 108, 74, 85, 69, 70, 88, 77, 108, 68, 76, 80, 72, 49, 51, 83, 115, 80, 75, 119, 118, 76, 52, 77, 103, 72, 97, 45, 67, 120, 57, 51, 56, 66, 48, 70, 82, 101, 85, 70, 116, 113, 55, 113, 69, 81, 72, 73, 80, 104, 71, 83, 84, 79, 101, 84, 83, 45, 118, 56, 65, 99, 112, 54, 86, 113, 107, 109, 99, 76, 66, 52, 107, 67, 73, 115, 107, 95, 73, 99, 114, 52, 54, 86, 84, 69, 80, 118, 51, 87, 87, 68, 72, 99, 98, 83, 122, 112, 45, 82, 80, 82, 48, 108, 84, 97, 56, 87, 84, 100, 79, 100, 95, 69, 57, 56, 85, 55, 48, 106, 102, 65, 90, 74, 65, 75, 77, 68, 87, 114, 52, 115, 81, 107, 118, 102, 107, 55, 119]).bind (fun l => longToBase64 l) = .ok "omXjOQmHl77TtpwMXL9WPcd-Xcg1bh8CoLGOyX1Ug_CLtZJx_SvSo0bj5bEiVb8eCa5mXuc6sDg9_RRpCvKHHxZG6f9qh5r3ZNY-yr5hKQqeMafWa4b6UqouLSSwKsNe5FWD327BoyaEsMyCRheQg4wX86G_8zqynuvbT6KzQbQtp4iqQvMWGswovmflsk7zoZUESAFu6L5xlJUEFXMlDLPH13SsPKwvL4MgHa-Cx938B0FReUFtq7qEQHIPhGSTOeTS-v8Acp6VqkmcLB4kCIsk_Icr46VTEPv3WWDHcbSzp-RPR0lTa8WTdOd_E98U70jfAZJAKMDWr4sQkvfk7w" := by
  decide +kernel

/-- `test_a_1_1c`: RFC 7515 A.1 -/
example : Real.sha.hmac .sha256 rfcKey (b64e ([123, 34, 116, 121, 112, 34, 58, 34, 74, 87, 84, 34, 44, 13, 10, 32, 34, 97, 108, 103, 34, 58, 34, 72, 83, 50, 53, 54, 34, 125]) ++ [46] ++ b64e ([123, 34, 105, 115, 115, 34, 58, 34, 106, 111, 101, 34, 44, 13, 10, 32, 34, 101, 120, 112, 34, 58, 49, 51, 48, 48, 56, 49, 57, 51, 56, 48, 44, 13, 10, 32, 34, 104, 116, 116, 112, 58, 47, 47, 101, 120, 97, 109, 112, 108, 101, 46, 99, 111, 109, 47, 105, 115, 95, 114, 111, 111, 116, 34, 58, 116, 114, 117, 101, 125])) = b64val [100, 66, 106, 102, 116, 74, 101, 90, 52, 67, 86, 80, 45, 109, 66, 57, 50, 75, 50, 55, 117, 104, 98, 85, 74, 85, 49, 112, 49, 114, 95, 119, 87, 49, 103, 70, 87, 70, 79, 69, 106, 88, 107] := by
  decide +kernel

/-- `test_a_1_3b`: RFC 7515 A.1 is accepted with the key of the standard, and the claims are those of the standard. -/
example : (symKeyNew [] (.bytes rfcKey)).bind (fun k => (({} : Jwx).verifyCompact stdEnv [101, 121, 74, 48, 101, 88, 65, 105, 79, 105, 74, 75, 86, 49, 81, 105, 76, 65, 48, 75, 73, 67, 74, 104, 98, 71, 99, 105, 79, 105, 74, 73, 85, 122, 73, 49, 78, 105, 74, 57, 46, 101, 121, 74, 112, 99, 51, 77, 105, 79, 105, 74, 113, 98, 50, 85, 105, 76, 65, 48, 75, 73, 67, 74, 108, 101, 72, 65, 105, 79, 106, 69, 122, 77, 68, 65, 52, 77, 84, 107, 122, 79, 68, 65, 115, 68, 81, 111, 103, 73, 109, 104, 48, 100, 72, 65, 54, 76, 121, 57, 108, 101, 71, 70, 116, 99, 71, 120, 108, 76, 109, 78, 118, 98, 83, 57, 112, 99, 49, 57, 121, 98, 50, 57, 48, 73, 106, 112, 48, 99, 110, 86, 108, 102, 81, 46, 100, 66, 106, 102, 116, 74, 101, 90, 52, 67, 86, 80, 45, 109, 66, 57, 50, 75, 50, 55, 117, 104, 98, 85, 74, 85, 49, 112, 49, 114, 95, 119, 87, 49, 103, 70, 87, 70, 79, 69, 106, 88, 107] [k] false .none).1) = .ok (.dict [("iss", .str "joe"), ("exp", .int 1300819380), ("http://example.com/is_root", .bool true)]) := by
  decide +kernel

/-- The same token with the last character of the signature changed is refused. -/
example : (symKeyNew [] (.bytes rfcKey)).bind (fun k => (({} : Jwx).verifyCompact stdEnv [101, 121, 74, 48, 101, 88, 65, 105, 79, 105, 74, 75, 86, 49, 81, 105, 76, 65, 48, 75, 73, 67, 74, 104, 98, 71, 99, 105, 79, 105, 74, 73, 85, 122, 73, 49, 78, 105, 74, 57, 46, 101, 121, 74, 112, 99, 51, 77, 105, 79, 105, 74, 113, 98, 50, 85, 105, 76, 65, 48, 75, 73, 67, 74, 108, 101, 72, 65, 105, 79, 106, 69, 122, 77, 68, 65, 52, 77, 84, 107, 122, 79, 68, 65, 115, 68, 81, 111, 103, 73, 109, 104, 48, 100, 72, 65, 54, 76, 121, 57, 108, 101, 71, 70, 116, 99, 71, 120, 108, 76, 109, 78, 118, 98, 83, 57, 112, 99, 49, 57, 121, 98, 50, 57, 48, 73, 106, 112, 48, 99, 110, 86, 108, 102, 81, 46, 100, 66, 106, 102, 116, 74, 101, 90, 52, 67, 86, 80, 45, 109, 66, 57, 50, 75, 50, 55, 117, 104, 98, 85, 74, 85, 49, 112, 49, 114, 95, 119, 87, 49, 103, 70, 87, 70, 79, 69, 106, 88, 103] [k] false .none).1) = .error .badSignature := by
  decide +kernel

/-- `test_left_hash_hs256` -/
example : leftHash stdEnv.H "Please take a moment to register today" "HS256" = some (.str "rCFHVJuxTqRxOsn2IUzgvA") := by
  decide +kernel

/-- `test_left_hash_hs512` -/
example : leftHash stdEnv.H "Please take a moment to register today" "HS512" = some (.str "_h6feWLt8zbYcOFnaBmekTzMJYEHdVTaXlDgJSWsEeY") := by
  decide +kernel

/-- `test_keys` -/
example : (Keys.loadDict stdEnv [] jwks).2.map Key.kty = [.str "RSA", .str "oct", .str "EC"] := by
  decide +kernel

/-- `test_encryption_key`, A128KW -/
example : (symKeyNew [] (.str "df34db91c16613deba460752522d28f6ebc8a73d0d9185836270c26b")).bind (fun k => k.encryptionKey stdEnv (.str "A128KW") true) = .ok (.obj (.val (.bytes (b64val [120, 67, 111, 57, 86, 104, 116, 111, 109, 109, 67, 84, 71, 77, 87, 105, 45, 82, 121, 87, 66, 119])))) := by
  decide +kernel

/-- `test_encryption_key`, A192KW -/
example : (symKeyNew [] (.str "df34db91c16613deba460752522d28f6ebc8a73d0d9185836270c26b")).bind (fun k => k.encryptionKey stdEnv (.str "A192KW") true) = .ok (.obj (.val (.bytes (b64val [120, 67, 111, 57, 86, 104, 116, 111, 109, 109, 67, 84, 71, 77, 87, 105, 45, 82, 121, 87, 66, 49, 52, 71, 81, 113, 72, 65, 71, 67, 56, 54])))) := by
  decide +kernel

/-- `test_encryption_key`, A256KW -/
example : (symKeyNew [] (.str "df34db91c16613deba460752522d28f6ebc8a73d0d9185836270c26b")).bind (fun k => k.encryptionKey stdEnv (.str "A256KW") true) = .ok (.obj (.val (.bytes (b64val [120, 67, 111, 57, 86, 104, 116, 111, 109, 109, 67, 84, 71, 77, 87, 105, 45, 82, 121, 87, 66, 49, 52, 71, 81, 113, 72, 65, 71, 67, 56, 54, 118, 119, 101, 85, 95, 80, 105, 54, 50, 88, 56])))) := by
  decide +kernel

/-- `test_encryption_key`, a longer secret -/
example : (symKeyNew [] (.str "YzE0MjgzNmRlODI5Yzg2MGYyZTRjNGE0NTZlMzBkZDRiNzJkNDA5MzUzNjM0ODkzM2E2MDk3ZWY")).bind (fun k => k.encryptionKey stdEnv (.str "A128KW") true) = .ok (.obj (.val (.bytes (b64val [121, 102, 95, 85, 85, 107, 65, 70, 90, 56, 80, 110, 95, 112, 114, 120, 80, 80, 103, 117, 57, 119])))) := by
  decide +kernel

/-- `test_rsa_pubkey_verify_x509_thumbprint`: the thumbprint given there is that of the certificate -/
example : (a2bBase64 ([77, 73, 73, 68, 48, 106, 67, 67, 65, 114, 113, 103, 65, 119, 73, 66, 65, 103, 73, 66, 83, 84, 65, 78, 66, 103, 107, 113, 104, 107, 105, 71, 57, 119, 48, 66, 65, 81, 81, 70, 65, 68, 67, 66, 105, 68, 69, 76, 77, 65, 107, 71, 65, 49, 85, 69, 66, 104, 77, 67, 82, 69, 85, 120, 69, 68, 65, 79, 66, 103, 78, 86, 66, 65, 103, 84, 66, 48, 74, 104, 100, 109, 70, 121, 97, 87, 69, 120, 69, 122, 65, 82, 66, 103, 78, 86, 66, 65, 111, 84, 67, 107, 74, 112, 98, 48, 108, 69, 73, 69, 100, 116, 89, 107, 103, 120, 76, 122, 65, 116, 66, 103, 78, 86, 66, 65, 77, 84, 74, 107, 74, 112, 98, 48, 108, 69, 73, 69, 78, 115, 97, 87, 86, 117, 100, 67, 66, 68, 90, 88, 74, 48, 97, 87, 90, 112, 89, 50, 70, 48, 97, 87, 57, 117, 73, 69, 70, 49, 100, 71, 104, 118, 99, 109, 108, 48, 101, 83, 65, 121, 77, 83, 69, 119, 72, 119, 89, 74, 75, 111, 90, 73, 104, 118, 99, 78, 65, 81, 107, 66, 70, 104, 74, 122, 90, 87, 78, 49, 99, 109, 108, 48, 101, 85, 66, 105, 97, 87, 57, 112, 90, 67, 53, 106, 98, 50, 48, 119, 72, 104, 99, 78, 77, 84, 85, 119, 78, 68, 69, 49, 77, 84, 81, 49, 78, 106, 77, 52, 87, 104, 99, 78, 77, 84, 89, 119, 78, 68, 69, 48, 77, 84, 81, 49, 78, 106, 77, 52, 87, 106, 66, 102, 77, 81, 115, 119, 67, 81, 89, 68, 86, 81, 81, 71, 69, 119, 74, 69, 82, 84, 69, 84, 77, 66, 69, 71, 65, 49, 85, 69, 67, 104, 77, 75, 81, 109, 108, 118, 83, 85, 81, 103, 82, 50, 49, 105, 83, 68, 69, 55, 77, 68, 107, 71, 65, 49, 85, 69, 65, 120, 77, 121, 81, 109, 108, 118, 83, 85, 81, 103, 84, 51, 66, 108, 98, 107, 108, 69, 73, 69, 78, 118, 98, 109, 53, 108, 89, 51, 81, 103, 83, 87, 82, 108, 98, 110, 82, 112, 100, 72, 107, 103, 85, 72, 74, 118, 100, 109, 108, 107, 90, 88, 73, 103, 81, 50, 86, 121, 100, 71, 108, 109, 97, 87, 78, 104, 100, 71, 85, 119, 103, 103, 69, 105, 77, 65, 48, 71, 67, 83, 113, 71, 83, 73, 98, 51, 68, 81, 69, 66, 65, 81, 85, 65, 65, 52, 73, 66, 68, 119, 65, 119, 103, 103, 69, 75, 65, 111, 73, 66, 65, 81, 67, 57, 97, 70, 69, 84, 109, 85, 54, 107, 68, 102, 77, 66, 80, 75, 77, 50, 79, 102, 73, 53, 101, 101, 100, 79, 51, 88, 80, 49, 50, 67, 105, 48, 104, 68, 67, 57, 57, 98, 100, 122, 85, 85, 73, 104, 68, 90, 71, 51, 52, 80, 81, 113, 99, 72, 56, 57, 103, 86, 87, 71, 116, 104, 74, 118, 53, 119, 51, 107, 113, 112, 100, 83, 114, 120, 102, 80, 67, 70, 77, 115, 66, 100, 110, 121, 107, 49, 86, 67, 117, 88, 109, 76, 103, 88, 83, 56, 115, 52, 111, 66, 116, 116, 49, 99, 57, 105, 77, 48, 74, 56, 88, 54, 90, 43, 53, 115, 117, 98, 83, 51, 88, 106, 101, 56, 102, 117, 53, 53, 67, 115, 104, 48, 74, 88, 78, 102, 111, 121, 50, 57, 114, 67, 89, 47, 79, 54, 121, 48, 102, 78, 105, 103, 110, 101, 103, 103, 48, 75, 83, 52, 80, 72, 118, 53, 84, 43, 97, 103, 70, 109, 97, 71, 52, 114, 120, 67, 81, 86, 57, 47, 107, 100, 56, 116, 108, 111, 47, 72, 84, 121, 86, 80, 115, 117, 83, 80, 68, 103, 115, 88, 120, 105, 115, 73, 86, 113, 117, 114, 57, 97, 117, 106, 89, 119, 100, 67, 111, 65, 90, 85, 56, 79, 85, 43, 53, 99, 99, 77, 76, 78, 73, 104, 112, 87, 74, 110, 43, 120, 78, 106, 103, 68, 82, 114, 52, 76, 57, 110, 120, 65, 89, 75, 99, 57, 118, 121, 43, 102, 55, 69, 111, 72, 51, 76, 84, 50, 52, 66, 55, 49, 122, 97, 122, 90, 115, 81, 55, 56, 118, 112, 111, 99, 122, 57, 56, 85, 84, 47, 55, 118, 100, 103, 83, 47, 73, 89, 88, 70, 110, 105, 80, 117, 85, 102, 98, 108, 106, 97, 55, 99, 113, 51, 49, 98, 85, 111, 121, 83, 68, 120, 54, 70, 89, 114, 116, 102, 67, 83, 85, 120, 78, 104, 97, 90, 83, 88, 56, 109, 112, 112, 65, 103, 77, 66, 65, 65, 71, 106, 98, 122, 66, 116, 77, 65, 107, 71, 65, 49, 85, 100, 69, 119, 81, 67, 77, 65, 65, 119, 72, 81, 89, 68, 86, 82, 48, 79, 66, 66, 89, 69, 70, 79, 102, 103, 51, 102, 47, 101, 119, 66, 76, 75, 53, 83, 107, 99, 66, 69, 88, 117, 115, 68, 54, 50, 79, 108, 122, 97, 77, 66, 56, 71, 65, 49, 85, 100, 73, 119, 81, 89, 77, 66, 97, 65, 70, 67, 81, 109, 100, 68, 43, 110, 86, 99, 86, 76, 97, 75, 116, 51, 118, 117, 55, 51, 88, 121, 78, 103, 112, 80, 69, 112, 77, 65, 115, 71, 65, 49, 85, 100, 68, 119, 81, 69, 65, 119, 73, 68, 105, 68, 65, 84, 66, 103, 78, 86, 72, 83, 85, 69, 68, 68, 65, 75, 66, 103, 103, 114, 66, 103, 69, 70, 66, 81, 99, 68, 65, 106, 65, 78, 66, 103, 107, 113, 104, 107, 105, 71, 57, 119, 48, 66, 65, 81, 81, 70, 65, 65, 79, 67, 65, 81, 69, 65, 75, 81, 106, 104, 99, 76, 47, 105, 71, 104, 121, 48, 53, 52, 57, 104, 69, 72, 82, 81, 65, 114, 74, 88, 115, 49, 105, 109, 55, 87, 50, 52, 52, 121, 69, 43, 84, 83, 67, 104, 100, 77, 87, 75, 101, 50, 101, 87, 118, 69, 104, 99, 57, 119, 88, 49, 97, 86, 86, 50, 109, 78, 74, 77, 49, 90, 78, 101, 89, 83, 103, 102, 111, 75, 54, 106, 106, 117, 88, 97, 72, 105, 83, 97, 73, 74, 69, 85, 99, 87, 49, 119, 86, 77, 51, 114, 68, 121, 119, 105, 50, 97, 57, 71, 75, 122, 79, 70, 103, 114, 87, 112, 86, 98, 112, 88, 81, 48, 53, 76, 83, 69, 55, 113, 69, 69, 87, 82, 109, 83, 112, 73, 77, 121, 75, 84, 105, 116, 85, 97, 108, 78, 112, 78, 65, 54, 99, 79, 77, 76, 53, 104, 105, 117, 85, 84, 102, 90, 98, 119, 55, 79, 118, 80, 119, 98, 110, 98, 83, 89, 89, 76, 54, 55, 52, 103, 69, 65, 50, 115, 87, 53, 65, 104, 80, 105, 67, 114, 57, 100, 86, 110, 77, 110, 47, 85, 75, 50, 73, 73, 52, 48, 56, 48, 50, 122, 100, 88, 85, 79, 118, 73, 120, 87, 101, 88, 112, 99, 115, 67, 120, 120, 90, 77, 106, 112, 47, 73, 114, 50, 106, 73, 90, 87, 79, 69, 106, 108, 65, 88, 81, 86, 71, 114, 50, 111, 66, 102, 76, 47, 98, 101, 47, 111, 53, 87, 88, 112, 97, 113, 87, 83, 102, 80, 82, 66, 90, 86, 56, 104, 116, 82, 73, 102, 48, 118, 84, 108, 71, 120, 55, 120, 82, 56, 70, 80, 87, 68, 89, 109, 99, 106, 52, 111, 47, 116, 75, 111, 78, 67, 49, 65, 99, 104, 106, 79, 110, 67, 119, 119, 69, 47, 109, 106, 52, 104, 103, 116, 111, 65, 115, 72, 78, 109, 89, 88, 70, 48, 111, 90, 88, 107, 55, 99, 111, 122, 113, 89, 68, 113, 75, 81, 61, 61])).map (Real.sha.hash .sha1) = .ok (b64val [75, 118, 72, 88, 86, 115, 112, 76, 109, 106, 87, 67, 54, 99, 80, 68, 73, 73, 86, 77, 72, 108, 74, 106, 78, 45, 99]) := by
  decide +kernel

/-- `test_jwe_09_a3`: AES key wrap -/
example : aesWrapKey stdEnv.C [25, 172, 32, 130, 225, 114, 26, 181, 138, 106, 254, 192, 95, 133, 74, 82] [4, 211, 31, 197, 84, 157, 252, 254, 11, 100, 157, 250, 63, 170, 106, 206, 107, 124, 212, 45, 111, 107, 9, 219, 200, 177, 0, 240, 143, 156, 44, 207] = .ok [232, 160, 123, 211, 183, 76, 245, 132, 200, 128, 123, 75, 190, 216, 22, 67, 201, 138, 193, 186, 9, 91, 122, 31, 246, 90, 28, 139, 57, 3, 76, 124, 193, 11, 98, 37, 173, 61, 104, 57] := by
  decide +kernel

/-- `test_jwe_09_a3`: A128CBC-HS256 -/
example : encSetup stdEnv exRnd (.str "A128CBC-HS256") (.bytes ([76, 105, 118, 101, 32, 108, 111, 110, 103, 32, 97, 110, 100, 32, 112, 114, 111, 115, 112, 101, 114, 46])) (b64e ([123, 34, 97, 108, 103, 34, 58, 34, 65, 49, 50, 56, 75, 87, 34, 44, 34, 101, 110, 99, 34, 58, 34, 65, 49, 50, 56, 67, 66, 67, 45, 72, 83, 50, 53, 54, 34, 125])) [4, 211, 31, 197, 84, 157, 252, 254, 11, 100, 157, 250, 63, 170, 106, 206, 107, 124, 212, 45, 111, 107, 9, 219, 200, 177, 0, 240, 143, 156, 44, 207] [3, 22, 60, 12, 43, 67, 104, 105, 108, 108, 105, 99, 111, 116, 104, 101] = .ok ([40, 57, 83, 181, 119, 33, 133, 148, 198, 185, 243, 24, 152, 230, 6, 75, 129, 223, 127, 19, 210, 82, 183, 230, 168, 33, 215, 104, 143, 112, 56, 102], [83, 73, 191, 98, 104, 205, 211, 128, 201, 189, 199, 133, 32, 38, 194, 85]) := by
  decide +kernel

/-- RFC 7516 A.3, put together from the segments in `test_jwe_09_a3`, with the key of the standard: the token is not
decrypted.  The library wraps with a digest of the secret (C68), not with the secret. -/
example : (symKeyNew [] (.bytes [25, 172, 32, 130, 225, 114, 26, 181, 138, 106, 254, 192, 95, 133, 74, 82])).bind (fun k => (Jwe.decrypt stdEnv {} exRnd [101, 121, 74, 104, 98, 71, 99, 105, 79, 105, 74, 66, 77, 84, 73, 52, 83, 49, 99, 105, 76, 67, 74, 108, 98, 109, 77, 105, 79, 105, 74, 66, 77, 84, 73, 52, 81, 48, 74, 68, 76, 85, 104, 84, 77, 106, 85, 50, 73, 110, 48, 46, 54, 75, 66, 55, 48, 55, 100, 77, 57, 89, 84, 73, 103, 72, 116, 76, 118, 116, 103, 87, 81, 56, 109, 75, 119, 98, 111, 74, 87, 51, 111, 102, 57, 108, 111, 99, 105, 122, 107, 68, 84, 72, 122, 66, 67, 50, 73, 108, 114, 84, 49, 111, 79, 81, 46, 65, 120, 89, 56, 68, 67, 116, 68, 97, 71, 108, 115, 98, 71, 108, 106, 98, 51, 82, 111, 90, 81, 46, 75, 68, 108, 84, 116, 88, 99, 104, 104, 90, 84, 71, 117, 102, 77, 89, 109, 79, 89, 71, 83, 52, 72, 102, 102, 120, 80, 83, 85, 114, 102, 109, 113, 67, 72, 88, 97, 73, 57, 119, 79, 71, 89, 46, 85, 48, 109, 95, 89, 109, 106, 78, 48, 52, 68, 74, 118, 99, 101, 70, 73, 67, 98, 67, 86, 81] [k]).1) = .error .valueError := by
  decide +kernel

/-- RFC 7518 appendix B, A128CBC-HS256: the tag -/
example : (encSetup stdEnv exRnd (.str "A128CBC-HS256") (.bytes ([65, 32, 99, 105, 112, 104, 101, 114, 32, 115, 121, 115, 116, 101, 109, 32, 109, 117, 115, 116, 32, 110, 111, 116, 32, 98, 101, 32, 114, 101, 113, 117, 105, 114, 101, 100, 32, 116, 111, 32, 98, 101, 32, 115, 101, 99, 114, 101, 116, 44, 32, 97, 110, 100, 32, 105, 116, 32, 109, 117, 115, 116, 32, 98, 101, 32, 97, 98, 108, 101, 32, 116, 111, 32, 102, 97, 108, 108, 32, 105, 110, 116, 111, 32, 116, 104, 101, 32, 104, 97, 110, 100, 115, 32, 111, 102, 32, 116, 104, 101, 32, 101, 110, 101, 109, 121, 32, 119, 105, 116, 104, 111, 117, 116, 32, 105, 110, 99, 111, 110, 118, 101, 110, 105, 101, 110, 99, 101])) ([84, 104, 101, 32, 115, 101, 99, 111, 110, 100, 32, 112, 114, 105, 110, 99, 105, 112, 108, 101, 32, 111, 102, 32, 65, 117, 103, 117, 115, 116, 101, 32, 75, 101, 114, 99, 107, 104, 111, 102, 102, 115]) [0, 1, 2, 3, 4, 5, 6, 7, 8, 9, 10, 11, 12, 13, 14, 15, 16, 17, 18, 19, 20, 21, 22, 23, 24, 25, 26, 27, 28, 29, 30, 31] [26, 243, 140, 45, 194, 185, 111, 253, 216, 102, 148, 9, 35, 65, 188, 4]).map Prod.snd = .ok [101, 44, 63, 163, 107, 10, 124, 91, 50, 25, 250, 179, 163, 11, 193, 196] := by
  decide +kernel

/-- RFC 7518 appendix B, A192CBC-HS384: the tag -/
example : (encSetup stdEnv exRnd (.str "A192CBC-HS384") (.bytes ([65, 32, 99, 105, 112, 104, 101, 114, 32, 115, 121, 115, 116, 101, 109, 32, 109, 117, 115, 116, 32, 110, 111, 116, 32, 98, 101, 32, 114, 101, 113, 117, 105, 114, 101, 100, 32, 116, 111, 32, 98, 101, 32, 115, 101, 99, 114, 101, 116, 44, 32, 97, 110, 100, 32, 105, 116, 32, 109, 117, 115, 116, 32, 98, 101, 32, 97, 98, 108, 101, 32, 116, 111, 32, 102, 97, 108, 108, 32, 105, 110, 116, 111, 32, 116, 104, 101, 32, 104, 97, 110, 100, 115, 32, 111, 102, 32, 116, 104, 101, 32, 101, 110, 101, 109, 121, 32, 119, 105, 116, 104, 111, 117, 116, 32, 105, 110, 99, 111, 110, 118, 101, 110, 105, 101, 110, 99, 101])) ([84, 104, 101, 32, 115, 101, 99, 111, 110, 100, 32, 112, 114, 105, 110, 99, 105, 112, 108, 101, 32, 111, 102, 32, 65, 117, 103, 117, 115, 116, 101, 32, 75, 101, 114, 99, 107, 104, 111, 102, 102, 115]) [0, 1, 2, 3, 4, 5, 6, 7, 8, 9, 10, 11, 12, 13, 14, 15, 16, 17, 18, 19, 20, 21, 22, 23, 24, 25, 26, 27, 28, 29, 30, 31, 32, 33, 34, 35, 36, 37, 38, 39, 40, 41, 42, 43, 44, 45, 46, 47] [26, 243, 140, 45, 194, 185, 111, 253, 216, 102, 148, 9, 35, 65, 188, 4]).map Prod.snd = .ok [132, 144, 172, 14, 88, 148, 155, 254, 81, 135, 93, 115, 63, 147, 172, 32, 117, 22, 128, 57, 204, 199, 51, 215] := by
  decide +kernel

/-- RFC 7518 appendix B, A256CBC-HS512: the tag -/
example : (encSetup stdEnv exRnd (.str "A256CBC-HS512") (.bytes ([65, 32, 99, 105, 112, 104, 101, 114, 32, 115, 121, 115, 116, 101, 109, 32, 109, 117, 115, 116, 32, 110, 111, 116, 32, 98, 101, 32, 114, 101, 113, 117, 105, 114, 101, 100, 32, 116, 111, 32, 98, 101, 32, 115, 101, 99, 114, 101, 116, 44, 32, 97, 110, 100, 32, 105, 116, 32, 109, 117, 115, 116, 32, 98, 101, 32, 97, 98, 108, 101, 32, 116, 111, 32, 102, 97, 108, 108, 32, 105, 110, 116, 111, 32, 116, 104, 101, 32, 104, 97, 110, 100, 115, 32, 111, 102, 32, 116, 104, 101, 32, 101, 110, 101, 109, 121, 32, 119, 105, 116, 104, 111, 117, 116, 32, 105, 110, 99, 111, 110, 118, 101, 110, 105, 101, 110, 99, 101])) ([84, 104, 101, 32, 115, 101, 99, 111, 110, 100, 32, 112, 114, 105, 110, 99, 105, 112, 108, 101, 32, 111, 102, 32, 65, 117, 103, 117, 115, 116, 101, 32, 75, 101, 114, 99, 107, 104, 111, 102, 102, 115]) [0, 1, 2, 3, 4, 5, 6, 7, 8, 9, 10, 11, 12, 13, 14, 15, 16, 17, 18, 19, 20, 21, 22, 23, 24, 25, 26, 27, 28, 29, 30, 31, 32, 33, 34, 35, 36, 37, 38, 39, 40, 41, 42, 43, 44, 45, 46, 47, 48, 49, 50, 51, 52, 53, 54, 55, 56, 57, 58, 59, 60, 61, 62, 63] [26, 243, 140, 45, 194, 185, 111, 253, 216, 102, 148, 9, 35, 65, 188, 4]).map Prod.snd = .ok [77, 211, 180, 192, 136, 167, 244, 92, 33, 104, 57, 100, 91, 32, 18, 191, 46, 98, 105, 168, 197, 106, 129, 109, 188, 27, 38, 119, 97, 149, 91, 197] := by
  decide +kernel

/-- `test_P256_verify_with_suite_B` -/
example : (nistCurve 256).bind (fun C => C.verify (bytesToNat (Real.sha.hash .sha256 [84, 104, 105, 115, 32, 105, 115, 32, 111, 110, 108, 121, 32, 97, 32, 116, 101, 115, 116, 32, 109, 101, 115, 115, 97, 103, 101, 46, 32, 73, 116, 32, 105, 115, 32, 52, 56, 32, 98, 121, 116, 101, 115, 32, 108, 111, 110, 103])) (C.int2bytes 51600303259579374507384246724897701128869030867276376282202297977113674183292 ++ C.int2bytes 56595599497885486216137736114635688387109980231363592615753486674630491751271) (some (58351759285569456841203950926840863508341048817129505008197573360161397309608, 97984338924949822393423337845758537525394383183490037930900081872624647455657))) = .ok true := by
  decide +kernel

/-- `test_P384_verify_with_suite_B` -/
example : (nistCurve 384).bind (fun C => C.verify (bytesToNat (Real.sha.hash .sha384 [84, 104, 105, 115, 32, 105, 115, 32, 111, 110, 108, 121, 32, 97, 32, 116, 101, 115, 116, 32, 109, 101, 115, 115, 97, 103, 101, 46, 32, 73, 116, 32, 105, 115, 32, 52, 56, 32, 98, 121, 116, 101, 115, 32, 108, 111, 110, 103])) (C.int2bytes 24743189648010916052810735140997200238683464272895429368148651601741068554797310290736364512915160595372647358785622 ++ C.int2bytes 5028209172410190474064079367245404355219759515584729206294181379055736985255048843526579315198329174644986352018434) (some (4883636790168012463451227878831076628080053810766824348200626273422396641624750797893604698944084483529621013277856, 36189765976231966438297339989254555380818865766240769784128357232242872867025054180013473946567830104408127142346233))) = .ok true := by
  decide +kernel

/-- `test_P521_verify_with_nist` -/
example : (nistCurve 521).bind (fun C => C.verify (bytesToNat (Real.sha.hash .sha512 [246, 148, 23, 190, 173, 59, 30, 32, 140, 76, 153, 35, 107, 248, 68, 116, 160, 13, 231, 240, 185, 221, 35, 249, 145, 182, 182, 14, 240, 251, 60, 98, 7, 58, 90, 122, 187, 30, 246, 157, 187, 216, 207, 97, 230, 66, 0, 202, 8, 109, 253, 100, 91, 100, 30, 141, 2, 57, 119, 130, 218, 146, 211, 84, 47, 189, 223, 99, 73, 172, 11, 72, 177, 177, 214, 159, 228, 98, 209, 187, 73, 47, 52, 221, 64, 209, 55, 22, 56, 67, 172, 17, 189, 9, 157, 247, 25, 33, 44, 22, 12, 190, 188, 178, 171, 111, 53, 37, 230, 72, 70, 200, 135, 225, 181, 43, 82, 236, 237, 148, 71, 163, 211, 25, 56, 89, 58, 135])) (C.int2bytes 2968322321648772446136472604308564880708410628692456317618150379458841308253553091636784926734099705746270442916481664824069413354534523075995315193533307958 ++ C.int2bytes 3214405467791544537234138624724511527133891938947650667298634431971245527853934514695575113751562521564674384241228182421409584563995080774354615723189144768) (some (4557563813449958205405882246685767131874050420679516931834240567110255862437079696031406134836984781224881399013241947282858189835388465853438455929024759911, 4339864321358777078057963698938720570187470641484469658402918094831381397986188271731585006434430621931734814730400922115243206687204931857671080474684922817))) = .ok true := by
  decide +kernel

/-- `test_P521_negative_verify_with_nist` -/
example : (nistCurve 521).bind (fun C => C.verify (bytesToNat (Real.sha.hash .sha512 [160, 115, 42, 96, 92, 120, 90, 44, 201, 163, 255, 132, 203, 175, 41, 23, 80, 64, 247, 160, 204, 53, 244, 234, 142, 239, 242, 103, 193, 249, 47, 6, 244, 109, 59, 53, 67, 113, 149, 24, 93, 50, 44, 189, 119, 95, 210, 71, 65, 232, 110, 233, 35, 107, 165, 179, 116, 162, 172, 41, 128, 53, 84, 215, 21, 250, 70, 86, 172, 49, 119, 143, 16, 63, 136, 214, 132, 52, 221, 32, 19, 212, 196, 233, 132, 138, 17, 25, 139, 57, 12, 61, 96, 13, 113, 40, 147, 81, 62, 23, 156, 211, 211, 31, 176, 108, 110, 42, 16, 22, 251, 150, 255, 217, 112, 177, 72, 158, 54, 165, 86, 171, 59, 83, 126, 178, 157, 255])) (C.int2bytes 5722170170388181371946091649091571232101584281631367815659634211079057179136276239955287770329096046641905739379557333262433436827379031120017759487775263889 ++ C.int2bytes 130825934753436374619097273408661430087500704639765376287650572740422356793968838994963095819025834750360822422926328370837176360969766340535594102304134643) (some (4000201029491497144870473295825672899846514602259916910272624598664799160764190459113697190896865918498938476946752035648896160736744414654921992750529894673, 5107241185526414417037912392254111375139419531965990646567277028019794640629895025271933405603150873333952340790296521642015183873749024002920569516892814374))) = .ok false := by
  decide +kernel

/-- RFC 7515 A.2 (RS256): the token is accepted with the public key of the standard. -/
example : (keyrep stdEnv [("kty", .str "RSA"), ("n", .bytes ([111, 102, 103, 87, 67, 117, 76, 106, 121, 98, 82, 108, 122, 111, 48, 116, 90, 87, 74, 106, 78, 105, 117, 83, 102, 98, 52, 112, 52, 102, 65, 107, 100, 95, 119, 87, 74, 99, 121, 81, 111, 84, 98, 106, 105, 57, 107, 48, 108, 56, 87, 50, 54, 109, 80, 100, 100, 120, 72, 109, 102, 72, 81, 112, 45, 86, 97, 119, 45, 52, 113, 80, 67, 74, 114, 99, 83, 50, 109, 74, 80, 77, 69, 122, 80, 49, 80, 116, 48, 66, 109, 52, 100, 52, 81, 108, 76, 45, 121, 82, 84, 45, 83, 70, 100, 50, 108, 90, 83, 45, 112, 67, 103, 78, 77, 115, 68, 49, 87, 95, 89, 112, 82, 80, 69, 119, 79, 87, 118, 71, 54, 98, 51, 50, 54, 57, 48, 114, 50, 106, 90, 52, 55, 115, 111, 77, 90, 111, 57, 119, 71, 122, 106, 98, 95, 55, 79, 77, 103, 48, 76, 79, 76, 45, 98, 83, 102, 54, 51, 107, 112, 97, 83, 72, 83, 88, 110, 100, 83, 53, 122, 53, 114, 101, 120, 77, 100, 98, 66, 89, 85, 115, 76, 65, 57, 101, 45, 75, 88, 66, 100, 81, 79, 83, 45, 85, 84, 111, 55, 87, 84, 66, 69, 77, 97, 50, 82, 50, 67, 97, 112, 72, 103, 54, 54, 53, 120, 115, 109, 116, 100, 86, 77, 84, 66, 81, 89, 52, 117, 68, 90, 108, 120, 118, 98, 51, 113, 67, 111, 53, 90, 119, 75, 104, 57, 107, 71, 52, 76, 84, 54, 95, 73, 53, 73, 104, 108, 74, 72, 55, 97, 71, 104, 121, 120, 88, 70, 118, 85, 75, 45, 68, 87, 78, 109, 111, 117, 100, 70, 56, 78, 65, 99, 111, 57, 95, 104, 57, 105, 97, 71, 78, 106, 56, 113, 50, 101, 116, 104, 70, 107, 77, 76, 115, 57, 49, 107, 122, 107, 50, 80, 65, 99, 68, 84, 87, 57, 103, 98, 53, 52, 104, 52, 70, 82, 87, 121, 117, 88, 112, 111, 81])), ("e", .bytes ([65, 81, 65, 66]))]).bind (fun k => (({} : Jwx).verifyCompact stdEnv [101, 121, 74, 104, 98, 71, 99, 105, 79, 105, 74, 83, 85, 122, 73, 49, 78, 105, 74, 57, 46, 101, 121, 74, 112, 99, 51, 77, 105, 79, 105, 74, 113, 98, 50, 85, 105, 76, 65, 48, 75, 73, 67, 74, 108, 101, 72, 65, 105, 79, 106, 69, 122, 77, 68, 65, 52, 77, 84, 107, 122, 79, 68, 65, 115, 68, 81, 111, 103, 73, 109, 104, 48, 100, 72, 65, 54, 76, 121, 57, 108, 101, 71, 70, 116, 99, 71, 120, 108, 76, 109, 78, 118, 98, 83, 57, 112, 99, 49, 57, 121, 98, 50, 57, 48, 73, 106, 112, 48, 99, 110, 86, 108, 102, 81, 46, 99, 67, 52, 104, 105, 85, 80, 111, 106, 57, 69, 101, 116, 100, 103, 116, 118, 51, 104, 70, 56, 48, 69, 71, 114, 104, 117, 66, 95, 95, 100, 122, 69, 82, 97, 116, 48, 88, 70, 57, 103, 50, 86, 116, 81, 103, 114, 57, 80, 74, 98, 117, 51, 88, 79, 105, 90, 106, 53, 82, 90, 109, 104, 55, 65, 65, 117, 72, 73, 109, 52, 66, 104, 45, 48, 81, 99, 95, 108, 70, 53, 89, 75, 116, 95, 79, 56, 87, 50, 70, 112, 53, 106, 117, 106, 71, 98, 100, 115, 57, 117, 74, 100, 98, 70, 57, 67, 85, 65, 114, 55, 116, 49, 100, 110, 90, 99, 65, 99, 81, 106, 98, 75, 66, 89, 78, 88, 52, 66, 65, 121, 110, 82, 70, 100, 105, 117, 66, 45, 45, 102, 95, 110, 90, 76, 103, 114, 110, 98, 121, 84, 121, 87, 122, 79, 55, 53, 118, 82, 75, 53, 104, 54, 120, 66, 65, 114, 76, 73, 65, 82, 78, 80, 118, 107, 83, 106, 116, 81, 66, 77, 72, 108, 98, 49, 76, 48, 55, 81, 101, 55, 75, 48, 71, 97, 114, 90, 82, 109, 66, 95, 101, 83, 78, 57, 51, 56, 51, 76, 99, 79, 76, 110, 54, 95, 100, 79, 45, 45, 120, 105, 49, 50, 106, 122, 68, 119, 117, 115, 67, 45, 101, 79, 107, 72, 87, 69, 115, 113, 116, 70, 90, 69, 83, 99, 54, 66, 102, 73, 55, 110, 111, 79, 80, 113, 118, 104, 74, 49, 112, 104, 67, 110, 118, 87, 104, 54, 73, 101, 89, 73, 50, 119, 57, 81, 79, 89, 69, 85, 105, 112, 85, 84, 73, 56, 110, 112, 54, 76, 98, 103, 71, 89, 57, 70, 115, 57, 56, 114, 113, 86, 116, 53, 65, 88, 76, 73, 104, 87, 107, 87, 121, 119, 108, 86, 109, 116, 86, 114, 66, 112, 48, 105, 103, 99, 78, 95, 73, 111, 121, 112, 71, 108, 85, 80, 81, 71, 101, 55, 55, 82, 119] [k] false .none).1) = .ok (.dict [("iss", .str "joe"), ("exp", .int 1300819380), ("http://example.com/is_root", .bool true)]) := by
  decide +kernel

/-- RFC 7515 A.3 (ES256): the token is accepted with the public key of the standard. -/
example : (keyrep stdEnv [("kty", .str "EC"), ("crv", .str "P-256"), ("x", .str "f83OJ3D2xF1Bg8vub9tLe1gHMzV76e8Tus9uPHvRVEU"), ("y", .str "x_FEzRu9m36HLN_tue659LNpXW6pCyStikYjKIWI5a0")]).bind (fun k => (({} : Jwx).verifyCompact stdEnv [101, 121, 74, 104, 98, 71, 99, 105, 79, 105, 74, 70, 85, 122, 73, 49, 78, 105, 74, 57, 46, 101, 121, 74, 112, 99, 51, 77, 105, 79, 105, 74, 113, 98, 50, 85, 105, 76, 65, 48, 75, 73, 67, 74, 108, 101, 72, 65, 105, 79, 106, 69, 122, 77, 68, 65, 52, 77, 84, 107, 122, 79, 68, 65, 115, 68, 81, 111, 103, 73, 109, 104, 48, 100, 72, 65, 54, 76, 121, 57, 108, 101, 71, 70, 116, 99, 71, 120, 108, 76, 109, 78, 118, 98, 83, 57, 112, 99, 49, 57, 121, 98, 50, 57, 48, 73, 106, 112, 48, 99, 110, 86, 108, 102, 81, 46, 68, 116, 69, 104, 85, 51, 108, 106, 98, 69, 103, 56, 76, 51, 56, 86, 87, 65, 102, 85, 65, 113, 79, 121, 75, 65, 77, 54, 45, 88, 120, 45, 70, 52, 71, 97, 119, 120, 97, 101, 112, 109, 88, 70, 67, 103, 102, 84, 106, 68, 120, 119, 53, 100, 106, 120, 76, 97, 56, 73, 83, 108, 83, 65, 112, 109, 87, 81, 120, 102, 75, 84, 85, 74, 113, 80, 80, 51, 45, 75, 103, 54, 78, 85, 49, 81] [k] false .none).1) = .ok (.dict [("iss", .str "joe"), ("exp", .int 1300819380), ("http://example.com/is_root", .bool true)]) := by
  decide +kernel

/-- RFC 7518 appendix C: the Diffie-Hellman secret -/
example : (nistCurve 256).bind (fun C => C.dhZ 95868137618030166809364817078804351319836184172769340930264256928620637034634 (some (87697963370940152608826961826819536732704094788490586461841420432037781685444, 55990327756538047345802740517818469455193278617246082724753740470003751111113))) = .ok [158, 86, 217, 29, 129, 113, 53, 211, 114, 131, 66, 131, 191, 132, 38, 156, 251, 49, 110, 163, 218, 128, 106, 72, 246, 218, 167, 121, 140, 254, 144, 196] := by
  decide +kernel

/-- RFC 7518 appendix C: the derived key is not that of the standard (C91). -/
example : (ecdhDeriveFromZ stdEnv.H [158, 86, 217, 29, 129, 113, 53, 211, 114, 131, 66, 131, 191, 132, 38, 156, 251, 49, 110, 163, 218, 128, 106, 72, 246, 218, 167, 121, 140, 254, 144, 196] (utf8Encode "Alice") (utf8Encode "Bob") (utf8Encode "A128GCM") 128).map b64e ≠ .ok (utf8Encode "VqqN6vgjbSBcIijNcacQGg") := by
  decide +kernel

/-- RFC 7518 appendix C: with the other info of the standard, counting from 1, SHA-256 gives the key of the standard. -/
example : (b64e ((Real.sha.hash .sha256 ([0, 0, 0, 1] ++ [158, 86, 217, 29, 129, 113, 53, 211, 114, 131, 66, 131, 191, 132, 38, 156, 251, 49, 110, 163, 218, 128, 106, 72, 246, 218, 167, 121, 140, 254, 144, 196] ++ [0, 0, 0, 7, 65, 49, 50, 56, 71, 67, 77, 0, 0, 0, 5, 65, 108, 105, 99, 101, 0, 0, 0, 3, 66, 111, 98, 0, 0, 0, 128])).take 16)) = utf8Encode "VqqN6vgjbSBcIijNcacQGg" := by
  decide +kernel

end Verif.Vectors
