/-! Generated by tools/gentab.py from lib/mac/omac.c. -/
namespace Kripto.Tab.MacOmac
set_option maxRecDepth 20000

/-- lib/mac/omac.c:46-304 `poly` -/
def poly : Vector (BitVec 8) 1536 := #v[
  0x00, 0x00, 0x00, 0x00, 0x00, 0x00, 0x00, 0x00, 0x00, 0x00, 0x00, 0x1B, 0x00, 0x00, 0x00, 0x00,
  0x00, 0x2B, 0x00, 0x00, 0x00, 0x00, 0x00, 0x1B, 0x00, 0x00, 0x00, 0x00, 0x00, 0x8D, 0x00, 0x00,
  0x00, 0x00, 0x00, 0x39, 0x00, 0x00, 0x00, 0x00, 0x00, 0x2D, 0x00, 0x00, 0x00, 0x00, 0x00, 0x95,
  0x00, 0x00, 0x00, 0x00, 0x00, 0x1B, 0x00, 0x00, 0x00, 0x00, 0x06, 0x09, 0x00, 0x00, 0x00, 0x00,
  0x02, 0x15, 0x00, 0x00, 0x00, 0x00, 0x00, 0xC5, 0x00, 0x00, 0x00, 0x00, 0x06, 0x41, 0x00, 0x00,
  0x00, 0x00, 0x00, 0x1B, 0x00, 0x00, 0x00, 0x00, 0x00, 0x39, 0x00, 0x00, 0x00, 0x00, 0x00, 0x1B,
  0x00, 0x00, 0x00, 0x00, 0x00, 0x87, 0x00, 0x00, 0x00, 0x00, 0x00, 0x2D, 0x00, 0x00, 0x00, 0x00,
  0x00, 0x95, 0x00, 0x00, 0x00, 0x00, 0x00, 0x4D, 0x00, 0x00, 0x00, 0x00, 0x00, 0x2D, 0x00, 0x00,
  0x00, 0x00, 0x80, 0x0D, 0x00, 0x00, 0x00, 0x00, 0x08, 0x0D, 0x00, 0x00, 0x00, 0x00, 0x03, 0x81,
  0x00, 0x00, 0x00, 0x00, 0x00, 0x87, 0x00, 0x00, 0x00, 0x00, 0x00, 0x2D, 0x00, 0x00, 0x00, 0x00,
  0x02, 0x0B, 0x00, 0x00, 0x00, 0x00, 0x00, 0x8B, 0x00, 0x00, 0x00, 0x00, 0x03, 0x09, 0x00, 0x00,
  0x00, 0x00, 0x02, 0x15, 0x00, 0x00, 0x00, 0x00, 0x01, 0x29, 0x00, 0x00, 0x00, 0x00, 0xC4, 0x01,
  0x00, 0x00, 0x00, 0x00, 0x04, 0x25, 0x00, 0x00, 0x00, 0x00, 0x09, 0x45, 0x00, 0x00, 0x00, 0x00,
  0x02, 0x0D, 0x00, 0x00, 0x00, 0x00, 0x02, 0x25, 0x00, 0x00, 0x00, 0x00, 0x0C, 0x03, 0x00, 0x00,
  0x00, 0x00, 0x00, 0x8D, 0x00, 0x00, 0x00, 0x00, 0x08, 0x07, 0x00, 0x00, 0x00, 0x00, 0x02, 0x91,
  0x00, 0x00, 0x00, 0x00, 0x00, 0x1B, 0x00, 0x00, 0x00, 0x00, 0x01, 0x0B, 0x00, 0x00, 0x00, 0x00,
  0x00, 0x93, 0x00, 0x00, 0x00, 0x00, 0x00, 0x87, 0x00, 0x00, 0x00, 0x00, 0x28, 0x41, 0x00, 0x00,
  0x00, 0x00, 0x00, 0x2D, 0x00, 0x00, 0x00, 0x00, 0x00, 0x8D, 0x00, 0x00, 0x00, 0x00, 0x01, 0xA1,
  0x00, 0x00, 0x00, 0x00, 0x10, 0x0D, 0x00, 0x00, 0x00, 0x00, 0x24, 0x41, 0x00, 0x00, 0x00, 0x00,
  0x00, 0x2D, 0x00, 0x00, 0x00, 0x00, 0x00, 0x2D, 0x00, 0x00, 0x00, 0x00, 0x02, 0x25, 0x00, 0x00,
  0x00, 0x00, 0x02, 0x85, 0x00, 0x00, 0x00, 0x00, 0x20, 0x19, 0x00, 0x00, 0x00, 0x00, 0x00, 0x1B,
  0x00, 0x00, 0x00, 0x00, 0x08, 0x51, 0x00, 0x00, 0x00, 0x04, 0x02, 0x41, 0x00, 0x00, 0x00, 0x0C,
  0x20, 0x01, 0x00, 0x00, 0x00, 0x00, 0x08, 0x0D, 0x00, 0x00, 0x00, 0x00, 0x82, 0x41, 0x00, 0x00,
  0x00, 0x00, 0x00, 0x1B, 0x00, 0x00, 0x00, 0x01, 0x00, 0x25, 0x00, 0x00, 0x00, 0x00, 0xC0, 0x41,
  0x00, 0x00, 0x00, 0x00, 0x01, 0x25, 0x00, 0x00, 0x00, 0x00, 0x88, 0x05, 0x00, 0x00, 0x00, 0x00,
  0x08, 0x45, 0x00, 0x00, 0x00, 0x00, 0x00, 0xA9, 0x00, 0x00, 0x00, 0x00, 0x01, 0x0B, 0x00, 0x00,
  0x00, 0x09, 0x02, 0x01, 0x00, 0x00, 0x00, 0x00, 0x0A, 0x41, 0x00, 0x00, 0x00, 0x00, 0x80, 0xC1,
  0x00, 0x00, 0x00, 0x00, 0x20, 0x19, 0x00, 0x00, 0x00, 0x00, 0x60, 0x09, 0x00, 0x00, 0x00, 0x00,
  0x20, 0x49, 0x00, 0x00, 0x00, 0x00, 0x02, 0x25, 0x00, 0x00, 0x00, 0x08, 0x20, 0x41, 0x00, 0x00,
  0x00, 0x08, 0x04, 0x09, 0x00, 0x00, 0x00, 0x00, 0x08, 0x61, 0x00, 0x00, 0x00, 0x00, 0x02, 0x07,
  0x00, 0x00, 0x00, 0x00, 0x40, 0x0D, 0x00, 0x00, 0x00, 0x00, 0x20, 0x0B, 0x00, 0x00, 0x00, 0x00,
  0x00, 0xB1, 0x00, 0x00, 0x00, 0x00, 0x0B, 0x01, 0x00, 0x00, 0x00, 0x00, 0x08, 0x61, 0x00, 0x00,
  0x00, 0x81, 0x02, 0x01, 0x00, 0x00, 0x00, 0x08, 0x40, 0x41, 0x00, 0x00, 0x00, 0x80, 0x04, 0x05,
  0x00, 0x00, 0x00, 0x00, 0x01, 0x0D, 0x00, 0x00, 0x00, 0x00, 0x00, 0x39, 0x00, 0x00, 0x00, 0x00,
  0x02, 0x51, 0x00, 0x00, 0x00, 0x00, 0x00, 0x1D, 0x00, 0x00, 0x00, 0x00, 0x21, 0x41, 0x00, 0x00,
  0x00, 0x00, 0x28, 0x03, 0x00, 0x00, 0x00, 0x00, 0x24, 0x09, 0x00, 0x00, 0x00, 0x00, 0x08, 0x61,
  0x00, 0x00, 0x00, 0x0A, 0x00, 0x11, 0x00, 0x00, 0x00, 0x00, 0xC0, 0x81, 0x00, 0x00, 0x00, 0x00,
  0x22, 0x41, 0x00, 0x00, 0x00, 0x00, 0x02, 0x89, 0x00, 0x00, 0x00, 0x00, 0x02, 0x83, 0x00, 0x00,
  0x00, 0x00, 0x40, 0x0D, 0x00, 0x00, 0x00, 0x00, 0x09, 0x05, 0x00, 0x00, 0x00, 0x00, 0x08, 0x51,
  0x00, 0x00, 0x00, 0x00, 0x20, 0x25, 0x00, 0x00, 0x00, 0x00, 0x08, 0x23, 0x00, 0x00, 0x00, 0x00,
  0x08, 0x13, 0x00, 0x00, 0x00, 0x08, 0x04, 0x09, 0x00, 0x00, 0x00, 0x20, 0x04, 0x41, 0x00, 0x00,
  0x00, 0x00, 0x20, 0x0B, 0x00, 0x00, 0x00, 0x00, 0x80, 0xA1, 0x00, 0x00, 0x00, 0x0C, 0x04, 0x01,
  0x00, 0x00, 0x00, 0x00, 0x00, 0xA9, 0x00, 0x00, 0x00, 0x00, 0x10, 0x85, 0x00, 0x00, 0x00, 0x00,
  0x00, 0xA3, 0x00, 0x00, 0x00, 0x00, 0x42, 0x41, 0x00, 0x00, 0x00, 0x00, 0x04, 0x0D, 0x00, 0x00,
  0x00, 0x00, 0xB0, 0x01, 0x00, 0x00, 0x00, 0x00, 0x1A, 0x01, 0x00, 0x00, 0x00, 0x01, 0x02, 0x81,
  0x00, 0x00, 0x00, 0x00, 0x12, 0x09, 0x00, 0x00, 0x00, 0x00, 0x02, 0x25, 0x00, 0x00, 0x00, 0x02,
  0x04, 0x41, 0x00, 0x00, 0x01, 0x00, 0x02, 0x09, 0x00, 0x00, 0x00, 0x02, 0xA0, 0x01, 0x00, 0x00,
  0x00, 0x00, 0x00, 0x39, 0x00, 0x00, 0x00, 0x0A, 0x01, 0x01, 0x00, 0x00, 0x00, 0x00, 0x80, 0x49,
  0x00, 0x00, 0x00, 0x08, 0x00, 0x43, 0x00, 0x00, 0x00, 0x20, 0x80, 0x09, 0x00, 0x00, 0x00, 0x00,
  0x85, 0x01, 0x00, 0x00, 0x00, 0x00, 0x80, 0x85, 0x00, 0x00, 0x00, 0x00, 0x08, 0x07, 0x00, 0x00,
  0x00, 0x00, 0x2A, 0x01, 0x00, 0x00, 0x00, 0x08, 0x03, 0x01, 0x00, 0x00, 0x00, 0x00, 0x82, 0x41,
  0x00, 0x00, 0x00, 0x60, 0x04, 0x01, 0x00, 0x00, 0x01, 0x00, 0x80, 0x41, 0x00, 0x00, 0x00, 0x20,
  0x02, 0x41, 0x00, 0x00, 0x00, 0x00, 0x81, 0x41, 0x00, 0x00, 0x00, 0x00, 0x22, 0x41, 0x00, 0x00,
  0x00, 0x00, 0x00, 0x8B, 0x00, 0x00, 0x00, 0x00, 0x02, 0x15, 0x00, 0x00, 0x00, 0x00, 0x0A, 0x81,
  0x00, 0x00, 0x00, 0x00, 0x80, 0x0D, 0x00, 0x00, 0x00, 0x00, 0x88, 0x05, 0x00, 0x00, 0x00, 0x00,
  0x10, 0x85, 0x00, 0x00, 0x00, 0x00, 0x0A, 0x09, 0x00, 0x00, 0x00, 0x00, 0x00, 0x2D, 0x00, 0x00,
  0x00, 0x00, 0x03, 0x81, 0x00, 0x00, 0x00, 0x00, 0x82, 0x41, 0x00, 0x00, 0x00, 0x00, 0x0C, 0x41,
  0x00, 0x00, 0x0A, 0x00, 0x02, 0x01, 0x00, 0x00, 0x00, 0x00, 0x12, 0x81, 0x00, 0x00, 0x02, 0x00,
  0x04, 0x05, 0x00, 0x00, 0x00, 0x02, 0x00, 0xA1, 0x00, 0x00, 0x00, 0x00, 0x80, 0x29, 0x00, 0x00,
  0xC0, 0x00, 0x00, 0x05, 0x00, 0x00, 0x00, 0x00, 0x00, 0x2D, 0x00, 0x00, 0x00, 0x01, 0x02, 0x81,
  0x00, 0x00, 0x00, 0x00, 0x10, 0xA1, 0x00, 0x00, 0x00, 0x81, 0x00, 0x41, 0x00, 0x00, 0x00, 0x00,
  0xC0, 0x05, 0x00, 0x00, 0x00, 0x12, 0x80, 0x01, 0x00, 0x00, 0x00, 0x00, 0xC0, 0x05, 0x00, 0x00,
  0x00, 0x00, 0x12, 0x09, 0x00, 0x00, 0x00, 0x20, 0x08, 0x09, 0x00, 0x00, 0x00, 0x00, 0x01, 0x0D,
  0x00, 0x00, 0x00, 0x00, 0x80, 0x43, 0x00, 0x00, 0x00, 0x02, 0x40, 0x41, 0x00, 0x00, 0x00, 0x00,
  0x00, 0x2D, 0x00, 0x00, 0x00, 0x00, 0x82, 0x21, 0x00, 0x00, 0x00, 0x0C, 0x04, 0x01, 0x00, 0x00,
  0x00, 0x00, 0x08, 0x23, 0x00, 0x00, 0x00, 0x02, 0x80, 0x21, 0x00, 0x00, 0x00, 0x00, 0x01, 0x0B,
  0x00, 0x00, 0x00, 0x00, 0x60, 0x41, 0x00, 0x00, 0x00, 0x00, 0x06, 0x41, 0x00, 0x00, 0x00, 0x00,
  0x08, 0x45, 0x00, 0x00, 0x00, 0x00, 0x0C, 0x41, 0x00, 0x00, 0x00, 0x00, 0x60, 0x81, 0x00, 0x00,
  0x00, 0x00, 0x08, 0x0D, 0x00, 0x00, 0x00, 0x00, 0x02, 0x15, 0x00, 0x00, 0x00, 0x00, 0x12, 0x09,
  0x00, 0x00, 0x00, 0x00, 0x08, 0x13, 0x00, 0x00, 0x00, 0x00, 0x0C, 0x05, 0x00, 0x00, 0x00, 0x00,
  0x03, 0x41, 0x00, 0x00, 0x00, 0x00, 0x28, 0x11, 0x00, 0x00, 0x00, 0x00, 0x01, 0x0D, 0x00, 0x00,
  0x00, 0x00, 0x06, 0x09, 0x00, 0x00, 0x00, 0x00, 0x24, 0x09, 0x00, 0x00, 0x00, 0x06, 0x00, 0x81,
  0x00, 0x00, 0x00, 0x20, 0x00, 0x45, 0x00, 0x00, 0x00, 0x00, 0x08, 0x83, 0x00, 0x00, 0x00, 0x08,
  0x10, 0x05, 0x00, 0x00, 0x00, 0x00, 0x01, 0x25, 0x00, 0x00, 0x00, 0x20, 0x04, 0x81, 0x00, 0x00,
  0x00, 0x10, 0x02, 0x05, 0x00, 0x00, 0x00, 0x28, 0x20, 0x01, 0x00, 0x00, 0x00, 0x00, 0x10, 0xA1,
  0x00, 0x00, 0x00, 0x00, 0x48, 0x03, 0x00, 0x00, 0x00, 0x00, 0xA0, 0x03, 0x00, 0x00, 0x00, 0x00,
  0x20, 0x19, 0x00, 0x00, 0x00, 0x00, 0x28, 0x21, 0x00, 0x00, 0x00, 0x02, 0x80, 0x09, 0x00, 0x00,
  0x00, 0x00, 0x00, 0xA3, 0x00, 0x00, 0x00, 0x04, 0x20, 0x03, 0x00, 0x00, 0x00, 0x08, 0x81, 0x01,
  0x00, 0x00, 0x00, 0x02, 0x02, 0x41, 0x00, 0x00, 0x00, 0x00, 0x00, 0x39, 0x00, 0x00, 0x00, 0x00,
  0x08, 0x45, 0x00, 0x00, 0x00, 0x00, 0x81, 0x41, 0x00, 0x00, 0x00, 0x00, 0x80, 0x49, 0x00, 0x00,
  0x00, 0x00, 0x48, 0x09, 0x00, 0x00, 0x00, 0x00, 0x90, 0x21, 0x00, 0x00, 0x00, 0x02, 0x44, 0x01,
  0x00, 0x00, 0x00, 0x00, 0x0C, 0x21, 0x00, 0x00, 0x00, 0x08, 0x40, 0x41, 0x00, 0x00, 0x00, 0x0C,
  0x00, 0x05, 0x00, 0x00, 0x00, 0x00, 0x00, 0x4D, 0x00, 0x00, 0x00, 0x00, 0x01, 0x0D, 0x00, 0x00,
  0x02, 0x00, 0x00, 0x61, 0x00, 0x00, 0x00, 0x00, 0x06, 0x09, 0x00, 0x00, 0x00, 0xA0, 0x00, 0x41,
  0x00, 0x00, 0x00, 0x02, 0x40, 0x09, 0x00, 0x00, 0x00, 0x40, 0x00, 0x25, 0x00, 0x00, 0x00, 0x09,
  0x02, 0x01, 0x00, 0x00, 0x00, 0x84, 0x00, 0x03, 0x00, 0x00, 0x00, 0x00, 0x00, 0xA3, 0x00, 0x00,
  0x00, 0x04, 0x20, 0x81, 0x00, 0x00, 0x00, 0x20, 0x04, 0x05, 0x00, 0x00, 0x00, 0x01, 0x20, 0x09,
  0x00, 0x00, 0x00, 0x00, 0x0A, 0x11, 0x00, 0x00, 0x00, 0x00, 0x0A, 0x03, 0x00, 0x00, 0x00, 0x00,
  0x04, 0x25, 0x00, 0x00, 0x00, 0x00, 0x80, 0x15, 0x00, 0x00, 0x00, 0x02, 0x20, 0x05, 0x00, 0x00,
  0x04, 0x00, 0x08, 0x05, 0x00, 0x00, 0x00, 0x00, 0x18, 0x03, 0x00, 0x00, 0x00, 0x10, 0x84, 0x01,
  0x00, 0x00, 0x00, 0x00, 0x08, 0x0D, 0x00, 0x00, 0x00, 0x03, 0x00, 0x81, 0x00, 0x00, 0x00, 0x00,
  0x84, 0x03, 0x00, 0x00, 0x08, 0x44, 0x00, 0x01, 0x00, 0x00, 0x00, 0x00, 0xC0, 0x41, 0x00, 0x00,
  0x00, 0x02, 0x80, 0x05, 0x00, 0x00, 0x02, 0x08, 0x40, 0x01, 0x00, 0x00, 0x02, 0x0A, 0x00, 0x01,
  0x00, 0x00, 0x00, 0x00, 0x28, 0x21, 0x00, 0x00, 0x00, 0x00, 0x00, 0x4D, 0x00, 0x00, 0x00, 0x00,
  0x24, 0x41, 0x00, 0x00, 0x04, 0x80, 0x20, 0x01, 0x00, 0x00, 0x00, 0x20, 0x80, 0x81, 0x01, 0x08,
  0x00, 0x00, 0x02, 0x01, 0x00, 0x00, 0x00, 0x00, 0x00, 0xC5, 0x00, 0x00, 0x00, 0x00, 0x00, 0x87]

end Kripto.Tab.MacOmac
