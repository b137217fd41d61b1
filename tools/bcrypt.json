[["test", "0c487d9a93afaa33439de90620aa4dc4", 16, "01bb8b34ce71a6506ba2c5ccc8109e2d1649e83cc33b8864b9338fd296c1d7fc045fc6923ff87ea8102d961f15f85c61"], ["test", "2b360f2d22bb055faa0d4f58cda95a08", 32, "1e31409afbc0866319b6a3c544200df3a5ea994948e507233a4f35f87402686f53e1e6523671297448efdfffcf7d4074"], ["test", "20ca4e1696336893aba6813e5c77fd25", 16, "e833a21236be514235766fbfbb464260b7ecd87cf17f57b9507a1b8a058874f7af582da6101f462d59b1e8ce0bb7c300"], ["test", "f1f94e2015b5d707e6b01a477be6df2a", 16, "2015fcb53acec11da2f882932119cbb6e32b01cfb87a5f92e8cc202db092e61b5e3ef398d9e7c9b3ba0aca33a37add2e"], ["test", "28cb814728aaa26cd3a952bfffd26dda", 16, "0cc758d9ad4b4b31756c660d0a5d123c04b82d2abf718867597160b28ac6b75e44e96aaa72764f515d61fc77f2e12e2f"], ["Test", "0c487d9a93afaa33439de90620aa4dc4", 16, "27033efedd019ce0bdc6ac816b9c14cd6eb299eab7032115e4e98dea4ccc2ae70caf2df59356934a764eaf991d32a884"]]