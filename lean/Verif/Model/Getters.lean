import Verif.Model.Device

/-! # The getters of `Client` and `Device`

`&SerialPort` and an owned port are both the port here; that a client cannot be used after `into_serial_port` is checked by the
borrow checker and is not part of the model. -/

namespace Dxl

/-- `Client::serial_port`, `src/client.rs:115-117`. -/
def Client.serialPort (b : Bus) : Port := b.serialPort

/-- `Client::into_serial_port`, `src/client.rs:123-125`. -/
def Client.intoSerialPort (b : Bus) : Port := b.serialPort

/-- `Client::baud_rate`, `src/client.rs:128-130`. -/
def Client.baudRate (b : Bus) : Nat := b.baudRate

/-- `Device::serial_port`, `src/device.rs:117-119`. -/
def Device.serialPort (b : Bus) : Port := b.serialPort

/-- `Device::into_serial_port`, `src/device.rs:125-127`. -/
def Device.intoSerialPort (b : Bus) : Port := b.serialPort

/-- `Device::baud_rate`, `src/device.rs:130-132`. -/
def Device.baudRate (b : Bus) : Nat := b.baudRate

end Dxl
