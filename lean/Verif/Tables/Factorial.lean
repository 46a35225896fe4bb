/-! Bit patterns of `factorial(n)`, n = 0..170 (computed by the model; `factTable_correct` in `Verif.Proofs.Factorial` proves them). -/

namespace Verif

/-- bit patterns of the results of `factorial(0) … factorial(170)` -/
def factTable : List Nat := [
  0x3ff0000000000000, 0x3ff0000000000000, 0x4000000000000000, 0x4018000000000000, 0x4038000000000000, 0x405e000000000000,
  0x4086800000000000, 0x40b3b00000000000, 0x40e3b00000000000, 0x4116260000000000, 0x414baf8000000000, 0x418308a800000000,
  0x41bc8cfc00000000, 0x41f7328cc0000000, 0x42344c3b28000000, 0x4273077775800000, 0x42b3077775800000, 0x42f437eeecd80000,
  0x4336beecca730000, 0x437b02b930689000, 0x43c0e1b3be415a00, 0x4406283be9b5c620, 0x444e77526159f06c, 0x4495e5c335f8a4ce,
  0x44e06c52687a7b9a, 0x4529a940c33f6121, 0x4574d9849ea37eeb, 0x45c19787e5d9f316, 0x460ec92dd23d6967, 0x465be6518687a785,
  0x46aa27ec6e1f2d0d, 0x46f956ad0aae33a5, 0x474956ad0aae33a5, 0x479a21627303a542, 0x47ebc3789a33df96, 0x483e5dcbe8a8bc8c,
  0x489114c2b2deea0e, 0x48e3c0011ed1bea0, 0x493774015499125e, 0x498c95619f1a8e63, 0x49e1dd5d037098fe, 0x4a36e39f2c684405,
  0x4a8e0ac0ea48d947, 0x4ae42f399d68f1fc, 0x4b3bc0ef38704cba, 0x4b9383a833aef5f3, 0x4bec0d41ca4b818d, 0x4c4499bc508f7324,
  0x4c9ee69a78d72cb5, 0x4cf7a88e4484be3c, 0x4d527baf2587b49f, 0x4dad751f23d047dd, 0x4e07ef294d193a64, 0x4e63d20e33d8e45b,
  0x4ec0b93bfbbf00ac, 0x4f1cbe5f18b04928, 0x4f792693359a4003, 0x4fd6665b1bbd6103, 0x50344cc291239fea, 0x5092b6c35dccd76c,
  0x50f18b5727f009f5, 0x5150b8cf1210c97e, 0x51b0330899804332, 0x520fe478ee34844a, 0x526fe478ee34844a, 0x52d0320568f6ab2e,
  0x5330b395943e6087, 0x53917c0097314d0d, 0x53f293c0a0a461de, 0x5454074bad313984, 0x54b5e7fac56dd6e8, 0x55184d5a3305da69,
  0x557b5705796695b6, 0x55df2f423e7902c4, 0x564207524c1df599, 0x56a5209471331bcf, 0x570916b0466cb106, 0x576e2f4c14bac4fc,
  0x57d264d25ca1d009, 0x5836b473aa57bccb, 0x589c619094edabfe, 0x5901f5bd7e3e66d7, 0x596702dac9bff3c3, 0x59cdd7b3bda4f021,
  0x5a33958df4743d96, 0x5a9a02a088aa61cb, 0x5b0179c3dbd279b5, 0x5b67c1863ed21d71, 0x5bd0550c4b30743e, 0x5c36b645188f61a6,
  0x5c9ff0512a89a152, 0x5d06b4d9b43dd8b0, 0x5d7051fc798c73bf, 0x5dd7b722e0a01831, 0x5e416a7d9cf591c4, 0x5ea9da1274fc845f,
  0x5f13638dd7bd6347, 0x5f7d62e2fafb0a78, 0x5fe67fb5c8283404, 0x605166c698cf183b, 0x60bb30964ec395dc, 0x612574569a265440,
  0x619118b502d68b23, 0x61fb83c3509147ec, 0x62665b0eb1760a70, 0x62d256b20d92d490, 0x633e5f96e67b300e, 0x63a963e824aafa2b,
  0x64156c4bdef04315, 0x64823e389bd8991f, 0x64ef5af14bdc472d, 0x655b30dd3fc905b9, 0x65c7cac197cfe502, 0x663500fee805882c,
  0x66a2b4e306a4ed47, 0x6710ce83f7f82d2e, 0x677e764f3171d1e3, 0x67ebd824633209d9, 0x6859ab418b722114, 0x68c7dd36efa41ac1,
  0x69365f6380a9d916, 0x69a5262c0fa08f36, 0x6a142861fee5087f, 0x6a835ece2af0162a, 0x6af2c3d7b9989579, 0x6b625340ab3f01f8,
  0x6bd209f3a89205f0, 0x6c41e5dfc140e1e5, 0x6cb1e5dfc140e1e5, 0x6d2209ab80c363a8, 0x6d9251d22ec67137, 0x6e02bfbd1bdf17de,
  0x6e7355bb04be109d, 0x6ee4171452ed7d43, 0x6f55082946d09f22, 0x6fc62e9b88b007d6, 0x70379185413b0854, 0x70a939c09fd12ee9,
  0x711b3243ac4d8694, 0x718d88957d1c3024, 0x720026b1c06b6a54, 0x7271ca9fcdf65320, 0x72e3bcc9487d4438, 0x73560ce8defbf237,
  0x73c8ce85fadb707a, 0x743c19f3c62c956a, 0x74b006cd07056d37, 0x752267cf76103b6d, 0x75954807e082c4b6, 0x7608c5d92b5838fb,
  0x767d07da7ecb62c7, 0x76f11fa1e0c9f743, 0x776455903aefd5a0, 0x77d84e466672ad59, 0x784d3e2cb341f88e, 0x78c1b4a51088f17e,
  0x793594292c26e652, 0x79aa77ba8027b681, 0x7a2055e51b1882a3, 0x7a944ab297a87247, 0x7b095d5f3d928ed9, 0x7b7fe771cb7257ad,
  0x7bf4307602be5b7b, 0x7c69b5b6477e687f, 0x7ce07868c5ccfaf1, 0x7d553b370efa3b7b, 0x7dcb88cb676c8524, 0x7e41f63cb077cada,
  0x7eb7932fa79d3a3e, 0x7f2f2054eb4d96ec, 0x7fa4ab7864418639]

end Verif
