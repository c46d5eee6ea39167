import Verif.Model.Cli

/-! # `tests/integration_test.rs`: the bodies of the integration tests

Each test gets the IDs of the motors and the client; a failed assertion is a panic. Simplification: the `Drop` of an iterator
while a panic unwinds is left out (see C89): the test has failed then in any case. -/

namespace Dxl
namespace IntegrationTests

/-- `let_assert!(Ok(response) = …); assert!(response.motor_id == …)`, for example `tests/integration_test.rs:11-12`. -/
def expectFrom {α : Type} (id : Byte) (m : SO Bus TransferError (Response α)) : SO Bus Empty Unit := do
  match ← m.attempt with
  | .ok response => if response.motorId = id then pure () else SO.panic
  | .error _ => SO.panic

/-- `let _ = …`, for example `tests/integration_test.rs:29`. -/
def ignore {α : Type} (m : SO Bus TransferError (Response α)) : SO Bus Empty Unit := do
  let _ ← m.attempt
  pure ()

/-- `test_read`, `tests/integration_test.rs:8-14`. -/
def testRead (ids : List Byte) : SO Bus Empty Unit := do
  let id ← SO.lift (idx ids 0)
  expectFrom id (Client.read (.unsigned 4) id 132#16)

/-- `test_read_bytes`, `tests/integration_test.rs:16-22`. -/
def testReadBytes (ids : List Byte) : SO Bus Empty Unit := do
  let id ← SO.lift (idx ids 0)
  expectFrom id (Client.readBytes id 132#16 4#16)

/-- `test_write`, `tests/integration_test.rs:24-31`. -/
def testWrite (ids : List Byte) : SO Bus Empty Unit := do
  let id ← SO.lift (idx ids 0)
  expectFrom id (Client.write (.unsigned 1) id 65#16 1)
  ignore (Client.write (.unsigned 1) id 65#16 0)

/-- `test_write_bytes`, `tests/integration_test.rs:33-40`. -/
def testWriteBytes (ids : List Byte) : SO Bus Empty Unit := do
  let id ← SO.lift (idx ids 0)
  expectFrom id (Client.writeBytes id 116#16 [1, 2, 3, 4])

/-- `test_reg_write`, `tests/integration_test.rs:42-51`. -/
def testRegWrite (ids : List Byte) : SO Bus Empty Unit := do
  let id ← SO.lift (idx ids 0)
  expectFrom id (Client.regWrite (.unsigned 1) id 65#16 1)
  expectFrom id (Client.action id)
  ignore (Client.write (.unsigned 1) id 65#16 0)

/-- `test_reg_write_bytes`, `tests/integration_test.rs:53-60`. -/
def testRegWriteBytes (ids : List Byte) : SO Bus Empty Unit := do
  let id ← SO.lift (idx ids 0)
  expectFrom id (Client.regWriteBytes id 116#16 [1, 2, 3, 4])

/-- `….unwrap()` on what the client returns, for example `tests/integration_test.rs:66`. -/
def unwrap {α : Type} (m : SO Bus WriteError α) : SO Bus Empty α := do
  match ← m.attempt with
  | .ok a => pure a
  | .error _ => SO.panic

/-- The loop `for (r, id) in response.zip(ids)`, for example `tests/integration_test.rs:67-74`, with the `next` of `response`
(`Zip` calls it before the `next` of `ids`). -/
def checkAll {σ α : Type} (next : SO σ Empty (Option (Except ReadError (Response α)))) : List Byte → SO σ Empty Unit
  | [] => do
    let _ ← next
    pure ()
  | id :: ids => do
    match ← next with
    | none => pure ()
    | some (.error _) => SO.panic
    | some (.ok r) => if r.motorId = id then checkAll next ids else SO.panic

/-- The iterator that is returned by `sync_read` and `sync_read_bytes`, `src/instructions/sync_read.rs:31-37, 80-85`. -/
def onSync {ε α : Type} (count : U16) (ids : List Byte) (m : SO SyncIter ε α) : SO Bus ε α := fun b =>
  ((m ⟨b, count, ids, 0⟩).1.client, (m ⟨b, count, ids, 0⟩).2)

/-- The iterator that is returned by `bulk_read_bytes`, `src/instructions/bulk_read.rs:27-32`. -/
def onBulk {ε α : Type} (reads : List BulkReadData) (m : SO BulkIter ε α) : SO Bus ε α := fun b =>
  ((m ⟨b, reads, 0⟩).1.client, (m ⟨b, reads, 0⟩).2)

/-- `test_sync_read`, `tests/integration_test.rs:62-76`. `fuel` bounds the iterations of `drop`. -/
def testSyncRead (fuel : Nat) (ids : List Byte) : SO Bus Empty Unit := do
  unwrap (Client.syncRead (.unsigned 4) ids 132#16)
  onSync (DataTy.unsigned 4).size ids (do
    checkAll (SyncIter.next (.unsigned 4)) ids
    SyncIter.drop (.unsigned 4) fuel)

/-- `test_sync_read_bytes`, `tests/integration_test.rs:78-92`. -/
def testSyncReadBytes (fuel : Nat) (ids : List Byte) : SO Bus Empty Unit := do
  unwrap (Client.syncReadBytes ids 132#16 4#16)
  onSync 4#16 ids (do
    checkAll SyncIter.nextBytes ids
    SyncIter.dropBytes fuel)

/-- `bulk_read_data`, `tests/integration_test.rs:98-105`. -/
def bulkReadData (ids : List Byte) : List BulkReadData := ids.map fun id => { motorId := id, address := 132#16, count := 4#16 }

/-- `test_bulk_read_bytes`, `tests/integration_test.rs:94-116`. -/
def testBulkReadBytes (ids : List Byte) : SO Bus Empty Unit := do
  unwrap (Client.bulkReadBytes (bulkReadData ids))
  onBulk (bulkReadData ids) (do
    checkAll BulkIter.next ids
    BulkIter.drop)

/-- `test_ping`, `tests/integration_test.rs:118-124`: `count` goes over all items, and drops the iterator. `fuel` bounds the
iterations of both loops. -/
def testPing (fuel : Nat) (ids : List Byte) : SO Bus Empty Unit := do
  unwrap Client.scan
  let items ← Cli.scanLoop fuel
  Client.scanDrop fuel
  if items.length = ids.length then pure () else SO.panic

end IntegrationTests
end Dxl
