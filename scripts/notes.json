{
 "C01": {
  "note": "Sum over all 2^160 addresses, every history."
 },
 "C02": {
  "note": "Success condition, exact effect and complete error table."
 },
 "C03": {
  "note": "Success condition, exact effect and complete error table (non-zero caller and owner)."
 },
 "C52": {
  "status": "partial",
  "note": "All-tokens half proved for every history. Owner half proved for non-zero ids and histories without self-transfers; both restrictions are shown necessary for the code as written (C52_zero_id_not_listed, C52_self_transfer_corrupts)."
 }
}