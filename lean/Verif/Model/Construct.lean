import Verif.Model.Device

/-! # Constructors of `Client` and `Device`: `src/client.rs:48-107`, `src/device.rs:48-109`

Both are wrappers around `Bus`, so their constructors return a bus. Opening a serial port is up to the environment: its
result is an argument. Configuration of the port by `serial2::SerialPort::open` is not modelled. -/

namespace Dxl

/-- `vec![0; 128]`, `src/client.rs:56, 90`, `src/device.rs:57, 95`. -/
def defaultBuffer : List Byte := List.replicate 128 0#8

namespace Client

/-- `Client::open`, `src/client.rs:54-58`. -/
def «open» (debug : Bool) (opened : Outcome IoErr Port) (baudRate : Nat) : Outcome IoErr Bus := do
  let serialPort ← opened
  Bus.withBuffersAndBaudRate debug serialPort defaultBuffer defaultBuffer baudRate

/-- `Client::open_with_buffers`, `src/client.rs:69-73`. -/
def openWithBuffers (debug : Bool) (opened : Outcome IoErr Port) (baudRate : Nat) (readBuffer writeBuffer : List Byte) :
    Outcome IoErr Bus := do
  let serialPort ← opened
  Bus.withBuffersAndBaudRate debug serialPort readBuffer writeBuffer baudRate

/-- `Client::new`, `src/client.rs:89-92`. -/
def new (debug : Bool) (serialPort : Port) : Outcome IoErr Bus := do
  let bus ← Bus.withBuffers debug serialPort defaultBuffer defaultBuffer
  pure bus

/-- `Client::with_buffers`, `src/client.rs:104-107`. -/
def withBuffers (debug : Bool) (serialPort : Port) (readBuffer writeBuffer : List Byte) : Outcome IoErr Bus := do
  let bus ← Bus.withBuffers debug serialPort readBuffer writeBuffer
  pure bus

end Client

namespace Device

/-- `Device::open`, `src/device.rs:55-59`. -/
def «open» (debug : Bool) (opened : Outcome IoErr Port) (baudRate : Nat) : Outcome IoErr Bus := do
  let serialPort ← opened
  Bus.withBuffersAndBaudRate debug serialPort defaultBuffer defaultBuffer baudRate

/-- `Device::open_with_buffers`, `src/device.rs:70-79`. -/
def openWithBuffers (debug : Bool) (opened : Outcome IoErr Port) (baudRate : Nat) (readBuffer writeBuffer : List Byte) :
    Outcome IoErr Bus := do
  let serialPort ← opened
  Bus.withBuffersAndBaudRate debug serialPort readBuffer writeBuffer baudRate

/-- `Device::new`, `src/device.rs:94-97`. -/
def new (debug : Bool) (serialPort : Port) : Outcome IoErr Bus := do
  let bus ← Bus.withBuffers debug serialPort defaultBuffer defaultBuffer
  pure bus

/-- `Device::with_buffers`, `src/device.rs:106-109`. -/
def withBuffers (debug : Bool) (serialPort : Port) (readBuffer writeBuffer : List Byte) : Outcome IoErr Bus := do
  let bus ← Bus.withBuffers debug serialPort readBuffer writeBuffer
  pure bus

end Device
end Dxl
