import Verif.Spec.Longhand

/- Rewriting the structs of a file that are given as lists of values to mappings with keys. -/

namespace Spec
open Rust Spec.Longhand

/-- A list of values, if there are enough keys for it, as the mapping of the keys in order to these values. -/
def withKeys (keys : List String) : Content → Content
  | .seq vs => if vs.length ≤ keys.length then .map ((keys.zip vs).map fun e => (.str e.1.toList, e.2)) else .seq vs
  | v => v

/-- The limits of block devices with keys. -/
def blkioWithKeys (v : Content) : Content :=
  atKey "device_read_bps" (eachItem (withKeys ["path", "rate"])) <|
  atKey "device_read_iops" (eachItem (withKeys ["path", "rate"])) <|
  atKey "device_write_bps" (eachItem (withKeys ["path", "rate"])) <|
  atKey "device_write_iops" (eachItem (withKeys ["path", "rate"])) <|
  atKey "weight_device" (eachItem (withKeys ["path", "weight"])) <|
  withKeys ["device_read_bps", "device_read_iops", "device_write_bps", "device_write_iops", "weight", "weight_device"] v

/-- A service with keys in all its settings. -/
def serviceWithKeys (v : Content) : Content :=
  atKey "blkio_config" blkioWithKeys <|
  atKey "depends_on" (eachValue (withKeys ["condition", "restart", "required"])) <|
  atKey "develop" (withKeys ["watch"]) <|
  atKey "extends" (withKeys ["service", "file"]) v

/-- A Compose file with keys in all settings of its services. -/
def fileWithKeys (v : Content) : Content := atKey "services" (eachValue serviceWithKeys) v

end Spec
