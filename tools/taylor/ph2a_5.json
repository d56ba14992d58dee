[{"root": [92800, 1, 407200, 2000000, 1, 2], "tree": "y(x(y(y(y(a)(a))(y(a)(a)))(y(a)(y(a)(a))))(y(y(y(a)(a))(a))(y(a)(a))))(x(y(y(a)(y(a)(a)))(y(y(a)(x(y(a)(a))(a)))(y(y(a)(a))(y(y(y(a)(a))(x(y(a)(a))(a)))(y(y(x(a)(a))(x(a)(a)))(y(a)(y(a)(y(x(a)(a))(x(a)(a))))))))))(y(y(a)(a))(y(a)(y(a)(y(y(y(a)(a))(y(x(a)(a))(x(a)(a))))(y(y(y(y(x(a)(a))(a))(a))(a))(y(a)(y(a)(y(a)(y(y(a)(y(a)(x(a)(a))))(y(y(x(a)(a))(x(a)(a)))(y(x(a)(a))(x(a)(a))))))))))))))", "n": 66, "s": 0}, {"root": [150000, 1, 650000, 2000000, 1, 2], "tree": "y(x(y(y(y(a)(a))(a))(y(a)(a)))(y(y(y(a)(a))(a))(y(a)(a))))(x(y(y(a)(a))(y(y(a)(a))(y(y(a)(y(x(a)(a))(x(a)(a))))(y(y(x(a)(a))(x(y(a)(a))(a)))(y(y(x(a)(a))(y(x(a)(a))(y(x(a)(a))(y(x(a)(a))(x(a)(a))))))(y(y(y(y(y(x(a)(a))(x(a)(a)))(y(x(a)(a))(y(x(a)(a))(x(a)(a)))))(y(y(y(x(a)(a))(y(x(a)(a))(x(a)(a))))(y(x(a)(a))(x(a)(a))))(y(x(a)(a))(x(a)(a)))))(y(y(x(a)(a))(x(a)(a)))(y(x(a)(a))(x(a)(a)))))(y(y(x(a)(a))(x(a)(a)))(y(x(a)(a))(x(a)(a))))))))))(y(y(a)(a))(y(a)(y(y(a)(x(a)(a)))(y(x(a)(a))(y(x(a)(a))(y(y(y(x(a)(a))(y(x(a)(a))(x(a)(a))))(y(x(a)(a))(x(a)(a))))(y(x(a)(a))(x(a)(a))))))))))", "n": 98, "s": 0}, {"root": [200000, 1, 1000000, 2000000, 1, 2], "tree": "y(x(y(y(y(a)(a))(y(a)(a)))(y(a)(a)))(y(y(y(a)(a))(y(a)(a)))(y(a)(a))))(x(y(y(a)(a))(y(y(a)(y(a)(y(a)(y(y(a)(x(a)(a)))(x(a)(a))))))(y(y(x(a)(a))(x(a)(a)))(y(x(a)(a))(y(x(a)(a))(y(x(a)(a))(x(a)(a))))))))(y(y(a)(a))(y(y(a)(y(a)(a)))(y(y(y(x(a)(a))(x(a)(a)))(y(x(a)(a))(x(a)(a))))(y(y(x(a)(a))(x(a)(a)))(y(x(a)(a))(y(x(a)(a))(x(a)(a)))))))))", "n": 57, "s": 0}, {"root": [250000, 1, 1450000, 2000000, 1, 2], "tree": "y(x(y(y(y(a)(a))(a))(y(a)(a)))(y(y(a)(a))(y(a)(a))))(x(y(y(a)(a))(y(y(x(a)(a))(y(y(x(a)(a))(y(x(a)(a))(x(a)(a))))(y(x(a)(a))(x(a)(a)))))(y(y(x(a)(a))(x(a)(a)))(y(x(x(a)(a))(x(a)(a)))(y(x(y(x(a)(a))(y(a)(y(a)(x(a)(a)))))(x(a)(a)))(x(y(x(a)(a))(x(a)(a)))(y(y(x(a)(a))(x(a)(a)))(x(a)(a)))))))))(y(y(a)(a))(y(y(a)(y(x(a)(a))(x(a)(a))))(y(y(x(a)(a))(x(a)(a)))(y(x(a)(y(a)(x(a)(a))))(y(x(x(a)(a))(y(x(a)(a))(x(a)(a))))(y(x(y(x(a)(a))(y(x(a)(a))(x(a)(a))))(y(x(a)(a))(y(x(a)(a))(x(a)(a)))))(y(x(y(y(x(a)(a))(y(x(a)(a))(x(a)(a))))(y(x(a)(a))(x(a)(a))))(y(x(a)(a))(y(x(a)(a))(x(a)(a)))))(y(x(x(a)(a))(y(x(a)(a))(x(a)(a))))(x(x(a)(a))(y(x(a)(a))(y(x(a)(a))(x(a)(a))))))))))))))", "n": 112, "s": 0}, {"root": [250000, 1, 1950000, 2000000, 1, 2], "tree": "y(x(y(y(a)(a))(y(a)(a)))(y(y(a)(a))(y(y(a)(a))(a))))(x(y(y(a)(a))(y(y(a)(y(x(a)(a))(x(a)(a))))(y(y(x(a)(a))(x(a)(a)))(y(x(y(a)(y(a)(x(a)(a))))(y(a)(x(a)(a))))(y(x(y(x(a)(a))(y(x(a)(a))(x(a)(a))))(x(a)(a)))(y(y(x(y(x(a)(a))(x(a)(a)))(x(a)(a)))(x(y(x(a)(a))(x(a)(a)))(y(x(a)(a))(y(x(a)(a))(x(a)(a))))))(y(x(y(x(a)(a))(x(a)(a)))(y(y(x(a)(a))(x(a)(a)))(y(x(a)(a))(x(a)(a)))))(x(y(x(a)(a))(x(a)(a)))(y(x(a)(a))(x(a)(a)))))))))))(y(y(a)(a))(y(y(a)(x(a)(a)))(y(y(x(a)(a))(x(a)(a)))(y(x(y(x(a)(a))(x(a)(a)))(x(a)(a)))(x(y(x(a)(a))(y(x(a)(a))(y(x(a)(a))(y(y(x(a)(a))(x(a)(a)))(x(a)(a))))))(x(a)(a))))))))", "n": 100, "s": 0}, {"root": [314220, 1, 2514220, 2000000, 1, 2], "tree": "y(x(y(y(a)(a))(y(a)(y(a)(a))))(y(y(y(a)(a))(a))(y(x(a)(a))(a))))(x(y(y(a)(y(a)(a)))(y(y(y(x(a)(a))(x(a)(a)))(y(x(a)(a))(x(a)(a))))(y(x(y(x(a)(a))(x(a)(a)))(y(x(a)(a))(x(a)(a))))(x(y(x(a)(a))(y(x(a)(a))(x(a)(a))))(y(x(a)(a))(x(a)(y(a)(x(a)(a)))))))))(y(y(x(a)(x(a)(y(a)(a))))(x(a)(x(a)(y(a)(a)))))(y(x(y(a)(a))(y(a)(x(a)(a))))(y(x(x(a)(a))(x(y(a)(a))(x(a)(y(a)(a)))))(y(x(x(a)(a))(x(y(a)(a))(x(a)(a))))(x(y(x(y(a)(x(a)(a)))(y(x(a)(a))(x(a)(a))))(y(x(y(x(a)(a))(y(x(a)(a))(x(a)(a))))(y(x(a)(a))(x(a)(a))))(x(y(x(a)(a))(x(a)(a)))(y(x(a)(a))(x(a)(a))))))(x(y(y(x(a)(a))(x(a)(a)))(y(x(a)(a))(y(x(a)(a))(x(y(a)(y(a)(x(a)(a))))(a)))))(y(x(a)(y(a)(x(a)(a))))(x(y(x(a)(y(a)(a)))(y(x(a)(x(a)(a)))(x(a)(a))))(x(y(y(a)(x(a)(a)))(y(x(a)(y(a)(a)))(y(a)(a))))(y(x(a)(a))(x(y(a)(a))(y(a)(a))))))))))))))", "n": 132, "s": 0}]